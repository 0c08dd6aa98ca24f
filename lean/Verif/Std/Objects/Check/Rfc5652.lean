import Verif.Std.Objects.Rfc5652

/-! The entries rfc5652.py makes, checked (generated by tools/objgen.py). -/

set_option maxRecDepth 100000

namespace Verif
namespace Std

theorem Rfc5652.registered_ok : Rfc5652.registered.ok = true := by decide +kernel

end Std
end Verif
