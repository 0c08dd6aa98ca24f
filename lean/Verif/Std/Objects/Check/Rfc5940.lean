import Verif.Std.Objects.Rfc5940

/-! The entries rfc5940.py makes, checked (generated by tools/objgen.py). -/

set_option maxRecDepth 100000

namespace Verif
namespace Std

theorem Rfc5940.registered_ok : Rfc5940.registered.ok = true := by decide +kernel

end Std
end Verif
