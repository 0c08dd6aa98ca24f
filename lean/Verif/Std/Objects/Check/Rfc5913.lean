import Verif.Std.Objects.Rfc5913

/-! The entries rfc5913.py makes, checked (generated by tools/objgen.py). -/

set_option maxRecDepth 100000

namespace Verif
namespace Std

theorem Rfc5913.registered_ok : Rfc5913.registered.ok = true := by decide +kernel

end Std
end Verif
