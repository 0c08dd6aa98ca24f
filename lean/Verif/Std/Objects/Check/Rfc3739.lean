import Verif.Std.Objects.Rfc3739

/-! The entries rfc3739.py makes, checked (generated by tools/objgen.py). -/

set_option maxRecDepth 100000

namespace Verif
namespace Std

theorem Rfc3739.registered_ok : Rfc3739.registered.ok = true := by decide +kernel

end Std
end Verif
