import Verif.Std.Objects.Rfc4357

/-! The entries rfc4357.py makes, checked (generated by tools/objgen.py). -/

set_option maxRecDepth 100000

namespace Verif
namespace Std

theorem Rfc4357.registered_ok : Rfc4357.registered.ok = true := by decide +kernel

end Std
end Verif
