import Verif.Std.Objects.Rfc7906

/-! The entries rfc7906.py makes, checked (generated by tools/objgen.py). -/

set_option maxRecDepth 100000

namespace Verif
namespace Std

theorem Rfc7906.registered_ok : Rfc7906.registered.ok = true := by decide +kernel

end Std
end Verif
