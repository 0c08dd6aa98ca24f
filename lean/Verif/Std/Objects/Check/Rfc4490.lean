import Verif.Std.Objects.Rfc4490

/-! The entries rfc4490.py makes, checked (generated by tools/objgen.py). -/

set_option maxRecDepth 100000

namespace Verif
namespace Std

theorem Rfc4490.registered_ok : Rfc4490.registered.ok = true := by decide +kernel

end Std
end Verif
