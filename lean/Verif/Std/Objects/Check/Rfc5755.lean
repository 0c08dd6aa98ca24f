import Verif.Std.Objects.Rfc5755

/-! The entries rfc5755.py makes, checked (generated by tools/objgen.py). -/

set_option maxRecDepth 100000

namespace Verif
namespace Std

theorem Rfc5755.registered_ok : Rfc5755.registered.ok = true := by decide +kernel

end Std
end Verif
