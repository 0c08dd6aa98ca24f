import Verif.Std.Objects.Rfc3770

/-! The entries rfc3770.py makes, checked (generated by tools/objgen.py). -/

set_option maxRecDepth 100000

namespace Verif
namespace Std

theorem Rfc3770.registered_ok : Rfc3770.registered.ok = true := by decide +kernel

end Std
end Verif
