import Verif.Std.Objects.Rfc8702

/-! The entries rfc8702.py makes, checked (generated by tools/objgen.py). -/

set_option maxRecDepth 100000

namespace Verif
namespace Std

theorem Rfc8702.registered_ok : Rfc8702.registered.ok = true := by decide +kernel

end Std
end Verif
