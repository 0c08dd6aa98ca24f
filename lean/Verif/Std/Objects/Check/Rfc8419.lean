import Verif.Std.Objects.Rfc8419

/-! The entries rfc8419.py makes, checked (generated by tools/objgen.py). -/

set_option maxRecDepth 100000

namespace Verif
namespace Std

theorem Rfc8419.registered_ok : Rfc8419.registered.ok = true := by decide +kernel

end Std
end Verif
