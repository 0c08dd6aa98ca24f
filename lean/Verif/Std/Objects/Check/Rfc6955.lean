import Verif.Std.Objects.Rfc6955

/-! The entries rfc6955.py makes, checked (generated by tools/objgen.py). -/

set_option maxRecDepth 100000

namespace Verif
namespace Std

theorem Rfc6955.registered_ok : Rfc6955.registered.ok = true := by decide +kernel

end Std
end Verif
