import Verif.Std.Objects.Rfc5914

/-! The entries rfc5914.py makes, checked (generated by tools/objgen.py). -/

set_option maxRecDepth 100000

namespace Verif
namespace Std

theorem Rfc5914.registered_ok : Rfc5914.registered.ok = true := by decide +kernel

end Std
end Verif
