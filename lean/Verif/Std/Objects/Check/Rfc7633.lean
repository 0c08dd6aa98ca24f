import Verif.Std.Objects.Rfc7633

/-! The entries rfc7633.py makes, checked (generated by tools/objgen.py). -/

set_option maxRecDepth 100000

namespace Verif
namespace Std

theorem Rfc7633.registered_ok : Rfc7633.registered.ok = true := by decide +kernel

end Std
end Verif
