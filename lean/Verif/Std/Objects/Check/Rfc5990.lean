import Verif.Std.Objects.Rfc5990

/-! The entries rfc5990.py makes, checked (generated by tools/objgen.py). -/

set_option maxRecDepth 100000

namespace Verif
namespace Std

theorem Rfc5990.registered_ok : Rfc5990.registered.ok = true := by decide +kernel

end Std
end Verif
