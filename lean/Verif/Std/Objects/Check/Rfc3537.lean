import Verif.Std.Objects.Rfc3537

/-! The entries rfc3537.py makes, checked (generated by tools/objgen.py). -/

set_option maxRecDepth 100000

namespace Verif
namespace Std

theorem Rfc3537.registered_ok : Rfc3537.registered.ok = true := by decide +kernel

end Std
end Verif
