import Verif.Std.Objects.Rfc8418

/-! The entries rfc8418.py makes, checked (generated by tools/objgen.py). -/

set_option maxRecDepth 100000

namespace Verif
namespace Std

theorem Rfc8418.registered_ok : Rfc8418.registered.ok = true := by decide +kernel

end Std
end Verif
