import Verif.Std.Objects.Rfc7030

/-! The entries rfc7030.py makes, checked (generated by tools/objgen.py). -/

set_option maxRecDepth 100000

namespace Verif
namespace Std

theorem Rfc7030.registered_ok : Rfc7030.registered.ok = true := by decide +kernel

end Std
end Verif
