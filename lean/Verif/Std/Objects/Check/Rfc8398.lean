import Verif.Std.Objects.Rfc8398

/-! The entries rfc8398.py makes, checked (generated by tools/objgen.py). -/

set_option maxRecDepth 100000

namespace Verif
namespace Std

theorem Rfc8398.registered_ok : Rfc8398.registered.ok = true := by decide +kernel

end Std
end Verif
