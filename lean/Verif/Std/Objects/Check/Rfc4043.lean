import Verif.Std.Objects.Rfc4043

/-! The entries rfc4043.py makes, checked (generated by tools/objgen.py). -/

set_option maxRecDepth 100000

namespace Verif
namespace Std

theorem Rfc4043.registered_ok : Rfc4043.registered.ok = true := by decide +kernel

end Std
end Verif
