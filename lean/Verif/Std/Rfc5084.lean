import Verif.Spec.Grade
import Verif.Gen.Rfc5084

/-! The ASN.1 of tools/std/rfc5084.asn1 (generated by tools/stdgen.py). -/

namespace Verif
namespace Std
namespace Rfc5084

open Asn1 Spec.X680

/-- `AES-CCM-ICVlen ::=` -/
def AES_CCM_ICVlen : Ty :=
  constrained (VALUES [.int 4, .int 6, .int 8, .int 10, .int 12, .int 14, .int 16]) INTEGER

/-- `CCMParameters ::=` -/
def CCMParameters : Ty :=
  SEQUENCE [
    mandatory "aes-nonce" (constrained (SIZE 7 13) OCTET_STRING),
    default "aes-ICVlen" AES_CCM_ICVlen (.int 12)]

/-- `AES-GCM-ICVlen ::=` -/
def AES_GCM_ICVlen : Ty :=
  constrained (VALUES [.int 12, .int 13, .int 14, .int 15, .int 16]) INTEGER

/-- `GCMParameters ::=` -/
def GCMParameters : Ty :=
  SEQUENCE [
    mandatory "aes-nonce" OCTET_STRING,
    default "aes-ICVlen" AES_GCM_ICVlen (.int 12)]

/-- Classes of rfc5084.py and the types of the standard they implement. -/
def entries : List Entry :=
  [⟨"rfc5084.AES_CCM_ICVlen", Verif.Rfc5084.AES_CCM_ICVlen, AES_CCM_ICVlen, .same, false⟩,
   ⟨"rfc5084.AES_GCM_ICVlen", Verif.Rfc5084.AES_GCM_ICVlen, AES_GCM_ICVlen, .same, false⟩,
   ⟨"rfc5084.CCMParameters", Verif.Rfc5084.CCMParameters, CCMParameters, .same, false⟩,
   ⟨"rfc5084.GCMParameters", Verif.Rfc5084.GCMParameters, GCMParameters, .same, false⟩]

/-- Classes of rfc5084.py the transcription of the standard has no type for. -/
def beyond : List String :=
  []

/-- Constants of rfc5084.py and the values the standard gives them. -/
def constants : List Constant :=
  [⟨"rfc5084.aes", Verif.Rfc5084.aes, OBJECT_IDENTIFIER, .oid [2, 16, 840, 1, 101, 3, 4, 1], true⟩,
   ⟨"rfc5084.id_aes128_CCM", Verif.Rfc5084.id_aes128_CCM, OBJECT_IDENTIFIER, .oid [2, 16, 840, 1, 101, 3, 4, 1, 7], true⟩,
   ⟨"rfc5084.id_aes128_GCM", Verif.Rfc5084.id_aes128_GCM, OBJECT_IDENTIFIER, .oid [2, 16, 840, 1, 101, 3, 4, 1, 6], true⟩,
   ⟨"rfc5084.id_aes192_CCM", Verif.Rfc5084.id_aes192_CCM, OBJECT_IDENTIFIER, .oid [2, 16, 840, 1, 101, 3, 4, 1, 27], true⟩,
   ⟨"rfc5084.id_aes192_GCM", Verif.Rfc5084.id_aes192_GCM, OBJECT_IDENTIFIER, .oid [2, 16, 840, 1, 101, 3, 4, 1, 26], true⟩,
   ⟨"rfc5084.id_aes256_CCM", Verif.Rfc5084.id_aes256_CCM, OBJECT_IDENTIFIER, .oid [2, 16, 840, 1, 101, 3, 4, 1, 47], true⟩,
   ⟨"rfc5084.id_aes256_GCM", Verif.Rfc5084.id_aes256_GCM, OBJECT_IDENTIFIER, .oid [2, 16, 840, 1, 101, 3, 4, 1, 46], true⟩]

/-- Constants of rfc5084.py the transcription of the standard has no value for. -/
def others : List String :=
  []

def standard : Standard := ⟨Verif.Rfc5084.asModule, entries, beyond, constants, others⟩

end Rfc5084
end Std
end Verif
