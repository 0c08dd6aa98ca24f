import Verif.Std.Objects.Rfc5275

/-! The entries rfc5275.py makes, checked (generated by tools/objgen.py). -/

set_option maxRecDepth 100000

namespace Verif
namespace Std

theorem Rfc5275.registered_ok : Rfc5275.registered.ok = true := by decide +kernel

end Std
end Verif
