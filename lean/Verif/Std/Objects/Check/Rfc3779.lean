import Verif.Std.Objects.Rfc3779

/-! The entries rfc3779.py makes, checked (generated by tools/objgen.py). -/

set_option maxRecDepth 100000

namespace Verif
namespace Std

theorem Rfc3779.registered_ok : Rfc3779.registered.ok = true := by decide +kernel

end Std
end Verif
