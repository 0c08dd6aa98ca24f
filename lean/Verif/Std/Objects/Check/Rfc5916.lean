import Verif.Std.Objects.Rfc5916

/-! The entries rfc5916.py makes, checked (generated by tools/objgen.py). -/

set_option maxRecDepth 100000

namespace Verif
namespace Std

theorem Rfc5916.registered_ok : Rfc5916.registered.ok = true := by decide +kernel

end Std
end Verif
