import Verif.Spec.Grade
import Verif.Gen.Rfc8103

/-! The ASN.1 of tools/std/rfc8103.asn1 (generated by tools/stdgen.py). -/

namespace Verif
namespace Std
namespace Rfc8103

open Asn1 Spec.X680

/-- `AEADChaCha20Poly1305Nonce ::=` -/
def AEADChaCha20Poly1305Nonce : Ty :=
  constrained (SIZE 12 12) OCTET_STRING

/-- Classes of rfc8103.py and the types of the standard they implement. -/
def entries : List Entry :=
  [⟨"rfc8103.AEADChaCha20Poly1305Nonce", Verif.Rfc8103.AEADChaCha20Poly1305Nonce, AEADChaCha20Poly1305Nonce, .same, false⟩]

/-- Classes of rfc8103.py the transcription of the standard has no type for. -/
def beyond : List String :=
  []

/-- Constants of rfc8103.py and the values the standard gives them. -/
def constants : List Constant :=
  [⟨"rfc8103.id_alg_AEADChaCha20Poly1305", Verif.Rfc8103.id_alg_AEADChaCha20Poly1305, OBJECT_IDENTIFIER, .oid [1, 2, 840, 113549, 1, 9, 16, 3, 18], true⟩]

/-- Constants of rfc8103.py the transcription of the standard has no value for. -/
def others : List String :=
  []

def standard : Standard := ⟨Verif.Rfc8103.asModule, entries, beyond, constants, others⟩

end Rfc8103
end Std
end Verif
