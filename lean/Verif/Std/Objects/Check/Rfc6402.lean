import Verif.Std.Objects.Rfc6402

/-! The entries rfc6402.py makes, checked (generated by tools/objgen.py). -/

set_option maxRecDepth 100000

namespace Verif
namespace Std

theorem Rfc6402.registered_ok : Rfc6402.registered.ok = true := by decide +kernel

end Std
end Verif
