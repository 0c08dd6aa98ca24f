import Verif.Std.Objects.Rfc5084

/-! The entries rfc5084.py makes, checked (generated by tools/objgen.py). -/

set_option maxRecDepth 100000

namespace Verif
namespace Std

theorem Rfc5084.registered_ok : Rfc5084.registered.ok = true := by decide +kernel

end Std
end Verif
