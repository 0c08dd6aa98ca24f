import Verif.Std.Objects.Rfc6120

/-! The entries rfc6120.py makes, checked (generated by tools/objgen.py). -/

set_option maxRecDepth 100000

namespace Verif
namespace Std

theorem Rfc6120.registered_ok : Rfc6120.registered.ok = true := by decide +kernel

end Std
end Verif
