import Verif.Std.Objects.Rfc4108

/-! The entries rfc4108.py makes, checked (generated by tools/objgen.py). -/

set_option maxRecDepth 100000

namespace Verif
namespace Std

theorem Rfc4108.registered_ok : Rfc4108.registered.ok = true := by decide +kernel

end Std
end Verif
