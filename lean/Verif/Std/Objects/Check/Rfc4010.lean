import Verif.Std.Objects.Rfc4010

/-! The entries rfc4010.py makes, checked (generated by tools/objgen.py). -/

set_option maxRecDepth 100000

namespace Verif
namespace Std

theorem Rfc4010.registered_ok : Rfc4010.registered.ok = true := by decide +kernel

end Std
end Verif
