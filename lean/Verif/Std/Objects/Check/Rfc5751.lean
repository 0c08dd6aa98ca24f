import Verif.Std.Objects.Rfc5751

/-! The entries rfc5751.py makes, checked (generated by tools/objgen.py). -/

set_option maxRecDepth 100000

namespace Verif
namespace Std

theorem Rfc5751.registered_ok : Rfc5751.registered.ok = true := by decide +kernel

end Std
end Verif
