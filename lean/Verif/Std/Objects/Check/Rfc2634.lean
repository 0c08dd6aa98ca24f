import Verif.Std.Objects.Rfc2634

/-! The entries rfc2634.py makes, checked (generated by tools/objgen.py). -/

set_option maxRecDepth 100000

namespace Verif
namespace Std

theorem Rfc2634.registered_ok : Rfc2634.registered.ok = true := by decide +kernel

end Std
end Verif
