import Verif.Std.Objects.Rfc6032

/-! The entries rfc6032.py makes, checked (generated by tools/objgen.py). -/

set_option maxRecDepth 100000

namespace Verif
namespace Std

theorem Rfc6032.registered_ok : Rfc6032.registered.ok = true := by decide +kernel

end Std
end Verif
