import Verif.Std.Objects.Rfc7894

/-! The entries rfc7894.py makes, checked (generated by tools/objgen.py). -/

set_option maxRecDepth 100000

namespace Verif
namespace Std

theorem Rfc7894.registered_ok : Rfc7894.registered.ok = true := by decide +kernel

end Std
end Verif
