import Verif.Std.Objects.Rfc7914

/-! The entries rfc7914.py makes, checked (generated by tools/objgen.py). -/

set_option maxRecDepth 100000

namespace Verif
namespace Std

theorem Rfc7914.registered_ok : Rfc7914.registered.ok = true := by decide +kernel

end Std
end Verif
