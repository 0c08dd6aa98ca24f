import Verif.Std.Objects.Rfc3709

/-! The entries rfc3709.py makes, checked (generated by tools/objgen.py). -/

set_option maxRecDepth 100000

namespace Verif
namespace Std

theorem Rfc3709.registered_ok : Rfc3709.registered.ok = true := by decide +kernel

end Std
end Verif
