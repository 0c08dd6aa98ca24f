import Verif.Std.Objects.Rfc5697

/-! The entries rfc5697.py makes, checked (generated by tools/objgen.py). -/

set_option maxRecDepth 100000

namespace Verif
namespace Std

theorem Rfc5697.registered_ok : Rfc5697.registered.ok = true := by decide +kernel

end Std
end Verif
