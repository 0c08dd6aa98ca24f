import Verif.Std.Objects.Rfc8649

/-! The entries rfc8649.py makes, checked (generated by tools/objgen.py). -/

set_option maxRecDepth 100000

namespace Verif
namespace Std

theorem Rfc8649.registered_ok : Rfc8649.registered.ok = true := by decide +kernel

end Std
end Verif
