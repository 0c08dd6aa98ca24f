import Verif.Std.Objects.Rfc3161

/-! The entries rfc3161.py makes, checked (generated by tools/objgen.py). -/

set_option maxRecDepth 100000

namespace Verif
namespace Std

theorem Rfc3161.registered_ok : Rfc3161.registered.ok = true := by decide +kernel

end Std
end Verif
