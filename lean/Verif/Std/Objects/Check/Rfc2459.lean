import Verif.Std.Objects.Rfc2459

/-! The entries rfc2459.py makes, checked (generated by tools/objgen.py). -/

set_option maxRecDepth 100000

namespace Verif
namespace Std

theorem Rfc2459.registered_ok : Rfc2459.registered.ok = true := by decide +kernel

end Std
end Verif
