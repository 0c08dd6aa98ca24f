import Verif.Spec.Grade
import Verif.Gen.Rfc6120

/-! The ASN.1 of tools/std/rfc6120.asn1 (generated by tools/stdgen.py). -/

namespace Verif
namespace Std
namespace Rfc6120

open Asn1 Spec.X680

/-- `XmppAddr ::=` -/
def XmppAddr : Ty :=
  UTF8String

/-- Classes of rfc6120.py and the types of the standard they implement. -/
def entries : List Entry :=
  [⟨"rfc6120.XmppAddr", Verif.Rfc6120.XmppAddr, XmppAddr, .same, false⟩]

/-- Classes of rfc6120.py the transcription of the standard has no type for. -/
def beyond : List String :=
  []

/-- Constants of rfc6120.py and the values the standard gives them. -/
def constants : List Constant :=
  [⟨"rfc6120.id_pkix", Verif.Rfc6120.id_pkix, OBJECT_IDENTIFIER, .oid [1, 3, 6, 1, 5, 5, 7], true⟩,
   ⟨"rfc6120.id_on", Verif.Rfc6120.id_on, OBJECT_IDENTIFIER, .oid [1, 3, 6, 1, 5, 5, 7, 8], true⟩,
   ⟨"rfc6120.id_on_xmppAddr", Verif.Rfc6120.id_on_xmppAddr, OBJECT_IDENTIFIER, .oid [1, 3, 6, 1, 5, 5, 7, 8, 5], true⟩]

/-- Constants of rfc6120.py the transcription of the standard has no value for. -/
def others : List String :=
  []

def standard : Standard := ⟨Verif.Rfc6120.asModule, entries, beyond, constants, others⟩

end Rfc6120
end Std
end Verif
