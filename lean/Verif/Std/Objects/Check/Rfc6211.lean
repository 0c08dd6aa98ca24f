import Verif.Std.Objects.Rfc6211

/-! The entries rfc6211.py makes, checked (generated by tools/objgen.py). -/

set_option maxRecDepth 100000

namespace Verif
namespace Std

theorem Rfc6211.registered_ok : Rfc6211.registered.ok = true := by decide +kernel

end Std
end Verif
