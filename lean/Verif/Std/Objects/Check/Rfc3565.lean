import Verif.Std.Objects.Rfc3565

/-! The entries rfc3565.py makes, checked (generated by tools/objgen.py). -/

set_option maxRecDepth 100000

namespace Verif
namespace Std

theorem Rfc3565.registered_ok : Rfc3565.registered.ok = true := by decide +kernel

end Std
end Verif
