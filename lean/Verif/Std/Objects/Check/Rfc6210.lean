import Verif.Std.Objects.Rfc6210

/-! The entries rfc6210.py makes, checked (generated by tools/objgen.py). -/

set_option maxRecDepth 100000

namespace Verif
namespace Std

theorem Rfc6210.registered_ok : Rfc6210.registered.ok = true := by decide +kernel

end Std
end Verif
