import Verif.Std.Objects.Rfc8696

/-! The entries rfc8696.py makes, checked (generated by tools/objgen.py). -/

set_option maxRecDepth 100000

namespace Verif
namespace Std

theorem Rfc8696.registered_ok : Rfc8696.registered.ok = true := by decide +kernel

end Std
end Verif
