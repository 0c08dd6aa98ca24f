import Verif.Spec.Grade
import Verif.Gen.Rfc5913
import Verif.Std.Rfc5755

/-! The ASN.1 of tools/std/rfc5913.asn1 (generated by tools/stdgen.py). -/

namespace Verif
namespace Std
namespace Rfc5913

open Asn1 Spec.X680

/-- `AuthorityClearanceConstraints ::=` -/
def AuthorityClearanceConstraints : Ty :=
  constrained (SIZE_MAX 1) (SEQUENCE_OF Std.Rfc5755.Clearance)

/-- Classes of rfc5913.py and the types of the standard they implement. -/
def entries : List Entry :=
  [⟨"rfc5913.AuthorityClearanceConstraints", Verif.Rfc5913.AuthorityClearanceConstraints, AuthorityClearanceConstraints, (.rewritten (.list (Vals.cons (.record (Vals.cons (.oid [1, 3]) (Vals.cons (.bits [false, true]) (Vals.cons (.list (Vals.cons (.record (Vals.cons (.oid [1, 3]) (Vals.cons (.octets [5, 0]) (Vals.nil)))) (Vals.nil))) (Vals.nil))))) (Vals.nil)))), false⟩]

/-- Classes of rfc5913.py the transcription of the standard has no type for. -/
def beyond : List String :=
  []

/-- Constants of rfc5913.py and the values the standard gives them. -/
def constants : List Constant :=
  [⟨"rfc5913.id_pe_clearanceConstraints", Verif.Rfc5913.id_pe_clearanceConstraints, OBJECT_IDENTIFIER, .oid [1, 3, 6, 1, 5, 5, 7, 1, 21], true⟩]

/-- Constants of rfc5913.py the transcription of the standard has no value for. -/
def others : List String :=
  ["rfc5913.id_pe_authorityClearanceConstraints"]

def standard : Standard := ⟨Verif.Rfc5913.asModule, entries, beyond, constants, others⟩

end Rfc5913
end Std
end Verif
