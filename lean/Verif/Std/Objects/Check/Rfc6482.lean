import Verif.Std.Objects.Rfc6482

/-! The entries rfc6482.py makes, checked (generated by tools/objgen.py). -/

set_option maxRecDepth 100000

namespace Verif
namespace Std

theorem Rfc6482.registered_ok : Rfc6482.registered.ok = true := by decide +kernel

end Std
end Verif
