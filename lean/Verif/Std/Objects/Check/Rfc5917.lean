import Verif.Std.Objects.Rfc5917

/-! The entries rfc5917.py makes, checked (generated by tools/objgen.py). -/

set_option maxRecDepth 100000

namespace Verif
namespace Std

theorem Rfc5917.registered_ok : Rfc5917.registered.ok = true := by decide +kernel

end Std
end Verif
