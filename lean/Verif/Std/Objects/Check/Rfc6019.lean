import Verif.Std.Objects.Rfc6019

/-! The entries rfc6019.py makes, checked (generated by tools/objgen.py). -/

set_option maxRecDepth 100000

namespace Verif
namespace Std

theorem Rfc6019.registered_ok : Rfc6019.registered.ok = true := by decide +kernel

end Std
end Verif
