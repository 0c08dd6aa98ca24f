import Verif.Std.Objects.Rfc3114

/-! The entries rfc3114.py makes, checked (generated by tools/objgen.py). -/

set_option maxRecDepth 100000

namespace Verif
namespace Std

theorem Rfc3114.registered_ok : Rfc3114.registered.ok = true := by decide +kernel

end Std
end Verif
