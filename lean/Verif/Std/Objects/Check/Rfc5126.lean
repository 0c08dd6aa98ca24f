import Verif.Std.Objects.Rfc5126

/-! The entries rfc5126.py makes, checked (generated by tools/objgen.py). -/

set_option maxRecDepth 100000

namespace Verif
namespace Std

theorem Rfc5126.registered_ok : Rfc5126.registered.ok = true := by decide +kernel

end Std
end Verif
