import Verif.Std.Objects.Rfc7508

/-! The entries rfc7508.py makes, checked (generated by tools/objgen.py). -/

set_option maxRecDepth 100000

namespace Verif
namespace Std

theorem Rfc7508.registered_ok : Rfc7508.registered.ok = true := by decide +kernel

end Std
end Verif
