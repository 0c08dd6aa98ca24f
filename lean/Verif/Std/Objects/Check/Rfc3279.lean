import Verif.Std.Objects.Rfc3279

/-! The entries rfc3279.py makes, checked (generated by tools/objgen.py). -/

set_option maxRecDepth 100000

namespace Verif
namespace Std

theorem Rfc3279.registered_ok : Rfc3279.registered.ok = true := by decide +kernel

end Std
end Verif
