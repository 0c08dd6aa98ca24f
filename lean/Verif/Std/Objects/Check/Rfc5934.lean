import Verif.Std.Objects.Rfc5934

/-! The entries rfc5934.py makes, checked (generated by tools/objgen.py). -/

set_option maxRecDepth 100000

namespace Verif
namespace Std

theorem Rfc5934.registered_ok : Rfc5934.registered.ok = true := by decide +kernel

end Std
end Verif
