import Verif.Std.Objects.Rfc8226

/-! The entries rfc8226.py makes, checked (generated by tools/objgen.py). -/

set_option maxRecDepth 100000

namespace Verif
namespace Std

theorem Rfc8226.registered_ok : Rfc8226.registered.ok = true := by decide +kernel

end Std
end Verif
