import Verif.Std.Objects.Rfc7292

/-! The entries rfc7292.py makes, checked (generated by tools/objgen.py). -/

set_option maxRecDepth 100000

namespace Verif
namespace Std

theorem Rfc7292.registered_ok : Rfc7292.registered.ok = true := by decide +kernel

end Std
end Verif
