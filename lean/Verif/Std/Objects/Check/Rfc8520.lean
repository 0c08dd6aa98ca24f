import Verif.Std.Objects.Rfc8520

/-! The entries rfc8520.py makes, checked (generated by tools/objgen.py). -/

set_option maxRecDepth 100000

namespace Verif
namespace Std

theorem Rfc8520.registered_ok : Rfc8520.registered.ok = true := by decide +kernel

end Std
end Verif
