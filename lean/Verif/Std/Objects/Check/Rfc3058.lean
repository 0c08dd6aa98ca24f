import Verif.Std.Objects.Rfc3058

/-! The entries rfc3058.py makes, checked (generated by tools/objgen.py). -/

set_option maxRecDepth 100000

namespace Verif
namespace Std

theorem Rfc3058.registered_ok : Rfc3058.registered.ok = true := by decide +kernel

end Std
end Verif
