import Verif.Std.Objects.Rfc4073

/-! The entries rfc4073.py makes, checked (generated by tools/objgen.py). -/

set_option maxRecDepth 100000

namespace Verif
namespace Std

theorem Rfc4073.registered_ok : Rfc4073.registered.ok = true := by decide +kernel

end Std
end Verif
