import Verif.Std.Objects.Rfc6031

/-! The entries rfc6031.py makes, checked (generated by tools/objgen.py). -/

set_option maxRecDepth 100000

namespace Verif
namespace Std

theorem Rfc6031.registered_ok : Rfc6031.registered.ok = true := by decide +kernel

end Std
end Verif
