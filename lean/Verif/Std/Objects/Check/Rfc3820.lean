import Verif.Std.Objects.Rfc3820

/-! The entries rfc3820.py makes, checked (generated by tools/objgen.py). -/

set_option maxRecDepth 100000

namespace Verif
namespace Std

theorem Rfc3820.registered_ok : Rfc3820.registered.ok = true := by decide +kernel

end Std
end Verif
