import Verif.Std.Objects.Rfc2985

/-! The entries rfc2985.py makes, checked (generated by tools/objgen.py). -/

set_option maxRecDepth 100000

namespace Verif
namespace Std

theorem Rfc2985.registered_ok : Rfc2985.registered.ok = true := by decide +kernel

end Std
end Verif
