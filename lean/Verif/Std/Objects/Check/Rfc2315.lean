import Verif.Std.Objects.Rfc2315

/-! The entries rfc2315.py makes, checked (generated by tools/objgen.py). -/

set_option maxRecDepth 100000

namespace Verif
namespace Std

theorem Rfc2315.registered_ok : Rfc2315.registered.ok = true := by decide +kernel

end Std
end Verif
