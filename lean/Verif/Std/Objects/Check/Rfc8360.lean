import Verif.Std.Objects.Rfc8360

/-! The entries rfc8360.py makes, checked (generated by tools/objgen.py). -/

set_option maxRecDepth 100000

namespace Verif
namespace Std

theorem Rfc8360.registered_ok : Rfc8360.registered.ok = true := by decide +kernel

end Std
end Verif
