import Verif.Std.Objects.Rfc5636

/-! The entries rfc5636.py makes, checked (generated by tools/objgen.py). -/

set_option maxRecDepth 100000

namespace Verif
namespace Std

theorem Rfc5636.registered_ok : Rfc5636.registered.ok = true := by decide +kernel

end Std
end Verif
