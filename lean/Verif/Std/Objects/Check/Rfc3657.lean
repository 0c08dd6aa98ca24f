import Verif.Std.Objects.Rfc3657

/-! The entries rfc3657.py makes, checked (generated by tools/objgen.py). -/

set_option maxRecDepth 100000

namespace Verif
namespace Std

theorem Rfc3657.registered_ok : Rfc3657.registered.ok = true := by decide +kernel

end Std
end Verif
