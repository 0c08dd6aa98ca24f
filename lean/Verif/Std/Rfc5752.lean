import Verif.Spec.Grade
import Verif.Gen.Rfc5752
import Verif.Std.Rfc5035
import Verif.Std.Rfc5652

/-! The ASN.1 of tools/std/rfc5752.asn1 (generated by tools/stdgen.py). -/

namespace Verif
namespace Std
namespace Rfc5752

open Asn1 Spec.X680

/-- `SignAttrsHash ::=` -/
def SignAttrsHash : Ty :=
  SEQUENCE [
    mandatory "algID" Std.Rfc5652.DigestAlgorithmIdentifier,
    mandatory "hash" OCTET_STRING]

/-- `MultipleSignatures ::=` -/
def MultipleSignatures : Ty :=
  SEQUENCE [
    mandatory "bodyHashAlg" Std.Rfc5652.DigestAlgorithmIdentifier,
    mandatory "signAlg" Std.Rfc5652.SignatureAlgorithmIdentifier,
    mandatory "signAttrsHash" SignAttrsHash,
    optional "cert" Std.Rfc5035.ESSCertIDv2]

/-- Classes of rfc5752.py and the types of the standard they implement. -/
def entries : List Entry :=
  [⟨"rfc5752.SignAttrsHash", Verif.Rfc5752.SignAttrsHash, SignAttrsHash, .same, false⟩,
   ⟨"rfc5752.MultipleSignatures", Verif.Rfc5752.MultipleSignatures, MultipleSignatures, (.changed [48, 23, 48, 3, 6, 1, 43, 48, 3, 6, 1, 43, 48, 7, 48, 3, 6, 1, 43, 4, 0, 48, 2, 4, 0]), false⟩]

/-- Classes of rfc5752.py the transcription of the standard has no type for. -/
def beyond : List String :=
  []

/-- Constants of rfc5752.py and the values the standard gives them. -/
def constants : List Constant :=
  [⟨"rfc5752.id_aa_multipleSignatures", Verif.Rfc5752.id_aa_multipleSignatures, OBJECT_IDENTIFIER, .oid [1, 2, 840, 113549, 1, 9, 16, 2, 51], true⟩]

/-- Constants of rfc5752.py the transcription of the standard has no value for. -/
def others : List String :=
  []

def standard : Standard := ⟨Verif.Rfc5752.asModule, entries, beyond, constants, others⟩

end Rfc5752
end Std
end Verif
