import Verif.Std.Objects.Rfc7773

/-! The entries rfc7773.py makes, checked (generated by tools/objgen.py). -/

set_option maxRecDepth 100000

namespace Verif
namespace Std

theorem Rfc7773.registered_ok : Rfc7773.registered.ok = true := by decide +kernel

end Std
end Verif
