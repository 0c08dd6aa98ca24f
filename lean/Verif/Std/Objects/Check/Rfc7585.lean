import Verif.Std.Objects.Rfc7585

/-! The entries rfc7585.py makes, checked (generated by tools/objgen.py). -/

set_option maxRecDepth 100000

namespace Verif
namespace Std

theorem Rfc7585.registered_ok : Rfc7585.registered.ok = true := by decide +kernel

end Std
end Verif
