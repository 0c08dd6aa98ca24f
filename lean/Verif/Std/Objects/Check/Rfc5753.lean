import Verif.Std.Objects.Rfc5753

/-! The entries rfc5753.py makes, checked (generated by tools/objgen.py). -/

set_option maxRecDepth 100000

namespace Verif
namespace Std

theorem Rfc5753.registered_ok : Rfc5753.registered.ok = true := by decide +kernel

end Std
end Verif
