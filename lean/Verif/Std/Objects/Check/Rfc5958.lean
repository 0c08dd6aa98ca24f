import Verif.Std.Objects.Rfc5958

/-! The entries rfc5958.py makes, checked (generated by tools/objgen.py). -/

set_option maxRecDepth 100000

namespace Verif
namespace Std

theorem Rfc5958.registered_ok : Rfc5958.registered.ok = true := by decide +kernel

end Std
end Verif
