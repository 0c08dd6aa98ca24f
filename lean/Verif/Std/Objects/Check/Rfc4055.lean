import Verif.Std.Objects.Rfc4055

/-! The entries rfc4055.py makes, checked (generated by tools/objgen.py). -/

set_option maxRecDepth 100000

namespace Verif
namespace Std

theorem Rfc4055.registered_ok : Rfc4055.registered.ok = true := by decide +kernel

end Std
end Verif
