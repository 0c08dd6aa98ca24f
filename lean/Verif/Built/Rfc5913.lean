import Verif.Spec.Built
import Verif.Std.Rfc5913
import Verif.Built.Rfc5755
import Verif.Std.Rfc5755

/-! What rfc5913.py implements, where that is not the standard (generated by tools/builtgen.py). -/

namespace Verif
namespace Built
namespace Rfc5913

open Asn1 Verif.Std Spec.X680 Spec.Built

/-- `AuthorityClearanceConstraints ::=` -/
def AuthorityClearanceConstraints : Ty :=
  constrained (SIZE_MAX 1) (SEQUENCE_OF Built.Rfc5755.Clearance)

def description : Description :=
  ⟨Verif.Rfc5913.asModule,
   [⟨"rfc5913.AuthorityClearanceConstraints", Verif.Rfc5913.AuthorityClearanceConstraints, Built.Rfc5913.AuthorityClearanceConstraints⟩]⟩

end Rfc5913
end Built
end Verif
