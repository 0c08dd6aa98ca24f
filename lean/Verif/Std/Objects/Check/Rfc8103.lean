import Verif.Std.Objects.Rfc8103

/-! The entries rfc8103.py makes, checked (generated by tools/objgen.py). -/

set_option maxRecDepth 100000

namespace Verif
namespace Std

theorem Rfc8103.registered_ok : Rfc8103.registered.ok = true := by decide +kernel

end Std
end Verif
