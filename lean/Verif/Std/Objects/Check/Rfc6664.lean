import Verif.Std.Objects.Rfc6664

/-! The entries rfc6664.py makes, checked (generated by tools/objgen.py). -/

set_option maxRecDepth 100000

namespace Verif
namespace Std

theorem Rfc6664.registered_ok : Rfc6664.registered.ok = true := by decide +kernel

end Std
end Verif
