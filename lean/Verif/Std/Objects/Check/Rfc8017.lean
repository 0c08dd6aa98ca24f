import Verif.Std.Objects.Rfc8017

/-! The entries rfc8017.py makes, checked (generated by tools/objgen.py). -/

set_option maxRecDepth 100000

namespace Verif
namespace Std

theorem Rfc8017.registered_ok : Rfc8017.registered.ok = true := by decide +kernel

end Std
end Verif
