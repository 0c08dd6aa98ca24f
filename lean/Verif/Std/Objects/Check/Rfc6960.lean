import Verif.Std.Objects.Rfc6960

/-! The entries rfc6960.py makes, checked (generated by tools/objgen.py). -/

set_option maxRecDepth 100000

namespace Verif
namespace Std

theorem Rfc6960.registered_ok : Rfc6960.registered.ok = true := by decide +kernel

end Std
end Verif
