import Verif.Std.Objects.Rfc7191

/-! The entries rfc7191.py makes, checked (generated by tools/objgen.py). -/

set_option maxRecDepth 100000

namespace Verif
namespace Std

theorem Rfc7191.registered_ok : Rfc7191.registered.ok = true := by decide +kernel

end Std
end Verif
