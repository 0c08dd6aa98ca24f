import Verif.Asn1.Open
import Verif.Spec.Asn1

/-!
# Open type fields that can be resolved

`OpenType(governor, map)` names another component of the same SEQUENCE or SET, whose value selects
the type.
-/

namespace Verif
namespace Asn1

/-- The component called `name`. -/
def Comps.find (name : String) : Comps → Option (Field × Ty)
  | .nil => none
  | .cons f t cs => if f.name = name then some (f, t) else cs.find name

/-- A component that can select a type: mandatory, and an OBJECT IDENTIFIER or an INTEGER. -/
def selects : Option (Field × Ty) → Bool
  | some (f, .prim .oid _) => f.mode.isReq
  | some (f, .prim .integer _) => f.mode.isReq
  | _ => false

/-- A type whose value is the octets of another encoding. -/
def carries : Ty → Bool
  | .prim .any _ => true
  | .prim .octetString _ => true
  | _ => false

/-- A type an open type field may have: octets, or a collection of them. -/
def carriesAll : Ty → Bool
  | .of _ _ t => carries t
  | t => carries t

/-- Every open type field among `cs` is selected by a component of `ds`, and is mandatory or
OPTIONAL. -/
def Comps.governedBy (ds : Comps) : Comps → Bool
  | .nil => true
  | .cons f t cs =>
    (match f.openType with
     | none => true
     | some o => selects (ds.find o.governor) && carriesAll t && (f.mode.isReq || f.mode.isOpt)) && governedBy ds cs

/-- No open type fields. -/
def Ty.closed : Ty → Bool
  | .seq _ _ cs => cs.noOpen
  | _ => true

/-- The open type fields of a SEQUENCE can be resolved; a SET has none, however deep. -/
def Ty.governed : Ty → Bool
  | .seq false _ cs => cs.governedBy cs
  | .seq true _ cs => cs.noOpen && cs.each Ty.closed
  | _ => true

end Asn1
end Verif
