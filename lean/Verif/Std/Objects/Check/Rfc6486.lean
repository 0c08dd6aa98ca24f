import Verif.Std.Objects.Rfc6486

/-! The entries rfc6486.py makes, checked (generated by tools/objgen.py). -/

set_option maxRecDepth 100000

namespace Verif
namespace Std

theorem Rfc6486.registered_ok : Rfc6486.registered.ok = true := by decide +kernel

end Std
end Verif
