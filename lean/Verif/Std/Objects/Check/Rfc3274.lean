import Verif.Std.Objects.Rfc3274

/-! The entries rfc3274.py makes, checked (generated by tools/objgen.py). -/

set_option maxRecDepth 100000

namespace Verif
namespace Std

theorem Rfc3274.registered_ok : Rfc3274.registered.ok = true := by decide +kernel

end Std
end Verif
