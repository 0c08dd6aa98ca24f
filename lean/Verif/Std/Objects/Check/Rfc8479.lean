import Verif.Std.Objects.Rfc8479

/-! The entries rfc8479.py makes, checked (generated by tools/objgen.py). -/

set_option maxRecDepth 100000

namespace Verif
namespace Std

theorem Rfc8479.registered_ok : Rfc8479.registered.ok = true := by decide +kernel

end Std
end Verif
