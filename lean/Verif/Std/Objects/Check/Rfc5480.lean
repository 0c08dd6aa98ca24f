import Verif.Std.Objects.Rfc5480

/-! The entries rfc5480.py makes, checked (generated by tools/objgen.py). -/

set_option maxRecDepth 100000

namespace Verif
namespace Std

theorem Rfc5480.registered_ok : Rfc5480.registered.ok = true := by decide +kernel

end Std
end Verif
