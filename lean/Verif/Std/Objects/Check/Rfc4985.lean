import Verif.Std.Objects.Rfc4985

/-! The entries rfc4985.py makes, checked (generated by tools/objgen.py). -/

set_option maxRecDepth 100000

namespace Verif
namespace Std

theorem Rfc4985.registered_ok : Rfc4985.registered.ok = true := by decide +kernel

end Std
end Verif
