import Verif.Std.Objects.Rfc4334

/-! The entries rfc4334.py makes, checked (generated by tools/objgen.py). -/

set_option maxRecDepth 100000

namespace Verif
namespace Std

theorem Rfc4334.registered_ok : Rfc4334.registered.ok = true := by decide +kernel

end Std
end Verif
