import Verif.Std.Objects.Rfc5083

/-! The entries rfc5083.py makes, checked (generated by tools/objgen.py). -/

set_option maxRecDepth 100000

namespace Verif
namespace Std

theorem Rfc5083.registered_ok : Rfc5083.registered.ok = true := by decide +kernel

end Std
end Verif
