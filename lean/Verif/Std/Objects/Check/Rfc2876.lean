import Verif.Std.Objects.Rfc2876

/-! The entries rfc2876.py makes, checked (generated by tools/objgen.py). -/

set_option maxRecDepth 100000

namespace Verif
namespace Std

theorem Rfc2876.registered_ok : Rfc2876.registered.ok = true := by decide +kernel

end Std
end Verif
