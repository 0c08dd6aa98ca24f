import Verif.Std.Objects.Rfc5035

/-! The entries rfc5035.py makes, checked (generated by tools/objgen.py). -/

set_option maxRecDepth 100000

namespace Verif
namespace Std

theorem Rfc5035.registered_ok : Rfc5035.registered.ok = true := by decide +kernel

end Std
end Verif
