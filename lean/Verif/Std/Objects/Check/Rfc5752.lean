import Verif.Std.Objects.Rfc5752

/-! The entries rfc5752.py makes, checked (generated by tools/objgen.py). -/

set_option maxRecDepth 100000

namespace Verif
namespace Std

theorem Rfc5752.registered_ok : Rfc5752.registered.ok = true := by decide +kernel

end Std
end Verif
