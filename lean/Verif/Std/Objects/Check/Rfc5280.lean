import Verif.Std.Objects.Rfc5280

/-! The entries rfc5280.py makes, checked (generated by tools/objgen.py). -/

set_option maxRecDepth 100000

namespace Verif
namespace Std

theorem Rfc5280.registered_ok : Rfc5280.registered.ok = true := by decide +kernel

end Std
end Verif
