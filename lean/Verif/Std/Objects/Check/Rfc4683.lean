import Verif.Std.Objects.Rfc4683

/-! The entries rfc4683.py makes, checked (generated by tools/objgen.py). -/

set_option maxRecDepth 100000

namespace Verif
namespace Std

theorem Rfc4683.registered_ok : Rfc4683.registered.ok = true := by decide +kernel

end Std
end Verif
