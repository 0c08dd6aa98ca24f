import Verif.Std.Objects.Rfc8358

/-! The entries rfc8358.py makes, checked (generated by tools/objgen.py). -/

set_option maxRecDepth 100000

namespace Verif
namespace Std

theorem Rfc8358.registered_ok : Rfc8358.registered.ok = true := by decide +kernel

end Std
end Verif
