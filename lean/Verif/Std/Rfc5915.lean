import Verif.Spec.Grade
import Verif.Gen.Rfc5915
import Verif.Std.Rfc5480

/-! The ASN.1 of tools/std/rfc5915.asn1 (generated by tools/stdgen.py). -/

namespace Verif
namespace Std
namespace Rfc5915

open Asn1 Spec.X680

/-- `ECPrivateKey ::=` -/
def ECPrivateKey : Ty :=
  SEQUENCE [
    mandatory "version" (constrained (VALUES [.int 1]) (named [("ecPrivkeyVer1", 1)] INTEGER)),
    mandatory "privateKey" OCTET_STRING,
    optional "parameters" (explicit .context 0 Std.Rfc5480.ECParameters),
    optional "publicKey" (explicit .context 1 BIT_STRING)]

/-- Classes of rfc5915.py and the types of the standard they implement. -/
def entries : List Entry :=
  [⟨"rfc5915.ECPrivateKey", Verif.Rfc5915.ECPrivateKey, ECPrivateKey, .relaxed, false⟩]

/-- Classes of rfc5915.py the transcription of the standard has no type for. -/
def beyond : List String :=
  []

/-- Constants of rfc5915.py and the values the standard gives them. -/
def constants : List Constant :=
  []

/-- Constants of rfc5915.py the transcription of the standard has no value for. -/
def others : List String :=
  []

def standard : Standard := ⟨Verif.Rfc5915.asModule, entries, beyond, constants, others⟩

end Rfc5915
end Std
end Verif
