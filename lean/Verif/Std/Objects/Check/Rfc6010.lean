import Verif.Std.Objects.Rfc6010

/-! The entries rfc6010.py makes, checked (generated by tools/objgen.py). -/

set_option maxRecDepth 100000

namespace Verif
namespace Std

theorem Rfc6010.registered_ok : Rfc6010.registered.ok = true := by decide +kernel

end Std
end Verif
