import Verif.Std.Objects.Rfc3370

/-! The entries rfc3370.py makes, checked (generated by tools/objgen.py). -/

set_option maxRecDepth 100000

namespace Verif
namespace Std

theorem Rfc3370.registered_ok : Rfc3370.registered.ok = true := by decide +kernel

end Std
end Verif
