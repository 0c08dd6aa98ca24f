import Verif.Std.Objects.Rfc4476

/-! The entries rfc4476.py makes, checked (generated by tools/objgen.py). -/

set_option maxRecDepth 100000

namespace Verif
namespace Std

theorem Rfc4476.registered_ok : Rfc4476.registered.ok = true := by decide +kernel

end Std
end Verif
