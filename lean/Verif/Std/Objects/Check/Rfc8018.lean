import Verif.Std.Objects.Rfc8018

/-! The entries rfc8018.py makes, checked (generated by tools/objgen.py). -/

set_option maxRecDepth 100000

namespace Verif
namespace Std

theorem Rfc8018.registered_ok : Rfc8018.registered.ok = true := by decide +kernel

end Std
end Verif
