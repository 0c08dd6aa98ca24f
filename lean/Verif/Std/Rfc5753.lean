import Verif.Spec.Grade
import Verif.Gen.Rfc5753
import Verif.Std.Rfc5280
import Verif.Std.Rfc5480
import Verif.Std.Rfc5652

/-! The ASN.1 of tools/std/rfc5753.asn1 (generated by tools/stdgen.py). -/

namespace Verif
namespace Std
namespace Rfc5753

open Asn1 Spec.X680

/-- `KeyWrapAlgorithm ::=` -/
def KeyWrapAlgorithm : Ty :=
  Std.Rfc5280.AlgorithmIdentifier

/-- `IV ::=` -/
def IV : Ty :=
  constrained (SIZE 8 8) OCTET_STRING

/-- `CBCParameter ::=` -/
def CBCParameter : Ty :=
  IV

/-- `ECC-CMS-SharedInfo ::=` -/
def ECC_CMS_SharedInfo : Ty :=
  SEQUENCE [
    mandatory "keyInfo" Std.Rfc5280.AlgorithmIdentifier,
    optional "entityUInfo" (explicit .context 0 OCTET_STRING),
    mandatory "suppPubInfo" (explicit .context 2 OCTET_STRING)]

/-- `MQVuserKeyingMaterial ::=` -/
def MQVuserKeyingMaterial : Ty :=
  SEQUENCE [
    mandatory "ephemeralPublicKey" Std.Rfc5652.OriginatorPublicKey,
    optional "addedukm" (explicit .context 0 Std.Rfc5652.UserKeyingMaterial)]

/-- Classes of rfc5753.py and the types of the standard they implement. -/
def entries : List Entry :=
  [⟨"rfc5753.AlgorithmIdentifier", Verif.Rfc5753.AlgorithmIdentifier, Std.Rfc5280.AlgorithmIdentifier, .same, false⟩,
   ⟨"rfc5753.OriginatorPublicKey", Verif.Rfc5753.OriginatorPublicKey, Std.Rfc5652.OriginatorPublicKey, .same, false⟩,
   ⟨"rfc5753.UserKeyingMaterial", Verif.Rfc5753.UserKeyingMaterial, Std.Rfc5652.UserKeyingMaterial, .same, false⟩,
   ⟨"rfc5753.ECDSA_Sig_Value", Verif.Rfc5753.ECDSA_Sig_Value, Std.Rfc5480.ECDSA_Sig_Value, .same, false⟩,
   ⟨"rfc5753.ECParameters", Verif.Rfc5753.ECParameters, Std.Rfc5480.ECParameters, .same, false⟩,
   ⟨"rfc5753.ECPoint", Verif.Rfc5753.ECPoint, Std.Rfc5480.ECPoint, .same, false⟩,
   ⟨"rfc5753.IV", Verif.Rfc5753.IV, IV, .relaxed, false⟩,
   ⟨"rfc5753.CBCParameter", Verif.Rfc5753.CBCParameter, CBCParameter, .relaxed, false⟩,
   ⟨"rfc5753.KeyWrapAlgorithm", Verif.Rfc5753.KeyWrapAlgorithm, KeyWrapAlgorithm, .same, false⟩,
   ⟨"rfc5753.ECC_CMS_SharedInfo", Verif.Rfc5753.ECC_CMS_SharedInfo, ECC_CMS_SharedInfo, .same, false⟩,
   ⟨"rfc5753.MQVuserKeyingMaterial", Verif.Rfc5753.MQVuserKeyingMaterial, MQVuserKeyingMaterial, .same, false⟩]

/-- Classes of rfc5753.py the transcription of the standard has no type for. -/
def beyond : List String :=
  []

/-- Constants of rfc5753.py and the values the standard gives them. -/
def constants : List Constant :=
  [⟨"rfc5753.id_ecPublicKey", Verif.Rfc5753.id_ecPublicKey, OBJECT_IDENTIFIER, .oid [1, 2, 840, 10045, 2, 1], true⟩,
   ⟨"rfc5753.id_hmacWithSHA224", Verif.Rfc5753.id_hmacWithSHA224, OBJECT_IDENTIFIER, .oid [1, 2, 840, 113549, 2, 8], true⟩,
   ⟨"rfc5753.id_hmacWithSHA256", Verif.Rfc5753.id_hmacWithSHA256, OBJECT_IDENTIFIER, .oid [1, 2, 840, 113549, 2, 9], true⟩,
   ⟨"rfc5753.id_hmacWithSHA384", Verif.Rfc5753.id_hmacWithSHA384, OBJECT_IDENTIFIER, .oid [1, 2, 840, 113549, 2, 10], true⟩,
   ⟨"rfc5753.id_hmacWithSHA512", Verif.Rfc5753.id_hmacWithSHA512, OBJECT_IDENTIFIER, .oid [1, 2, 840, 113549, 2, 11], true⟩,
   ⟨"rfc5753.x9_63_scheme", Verif.Rfc5753.x9_63_scheme, OBJECT_IDENTIFIER, .oid [1, 3, 133, 16, 840, 63, 0], true⟩,
   ⟨"rfc5753.secg_scheme", Verif.Rfc5753.secg_scheme, OBJECT_IDENTIFIER, .oid [1, 3, 132, 1], true⟩,
   ⟨"rfc5753.dhSinglePass_cofactorDH_sha1kdf_scheme", Verif.Rfc5753.dhSinglePass_cofactorDH_sha1kdf_scheme, OBJECT_IDENTIFIER, .oid [1, 3, 133, 16, 840, 63, 0, 3], true⟩,
   ⟨"rfc5753.dhSinglePass_cofactorDH_sha224kdf_scheme", Verif.Rfc5753.dhSinglePass_cofactorDH_sha224kdf_scheme, OBJECT_IDENTIFIER, .oid [1, 3, 132, 1, 14, 0], true⟩,
   ⟨"rfc5753.dhSinglePass_cofactorDH_sha256kdf_scheme", Verif.Rfc5753.dhSinglePass_cofactorDH_sha256kdf_scheme, OBJECT_IDENTIFIER, .oid [1, 3, 132, 1, 14, 1], true⟩,
   ⟨"rfc5753.dhSinglePass_cofactorDH_sha384kdf_scheme", Verif.Rfc5753.dhSinglePass_cofactorDH_sha384kdf_scheme, OBJECT_IDENTIFIER, .oid [1, 3, 132, 1, 14, 2], true⟩,
   ⟨"rfc5753.dhSinglePass_cofactorDH_sha512kdf_scheme", Verif.Rfc5753.dhSinglePass_cofactorDH_sha512kdf_scheme, OBJECT_IDENTIFIER, .oid [1, 3, 132, 1, 14, 3], true⟩,
   ⟨"rfc5753.dhSinglePass_stdDH_sha1kdf_scheme", Verif.Rfc5753.dhSinglePass_stdDH_sha1kdf_scheme, OBJECT_IDENTIFIER, .oid [1, 3, 133, 16, 840, 63, 0, 2], true⟩,
   ⟨"rfc5753.dhSinglePass_stdDH_sha224kdf_scheme", Verif.Rfc5753.dhSinglePass_stdDH_sha224kdf_scheme, OBJECT_IDENTIFIER, .oid [1, 3, 132, 1, 11, 0], true⟩,
   ⟨"rfc5753.dhSinglePass_stdDH_sha256kdf_scheme", Verif.Rfc5753.dhSinglePass_stdDH_sha256kdf_scheme, OBJECT_IDENTIFIER, .oid [1, 3, 132, 1, 11, 1], true⟩,
   ⟨"rfc5753.dhSinglePass_stdDH_sha384kdf_scheme", Verif.Rfc5753.dhSinglePass_stdDH_sha384kdf_scheme, OBJECT_IDENTIFIER, .oid [1, 3, 132, 1, 11, 2], true⟩,
   ⟨"rfc5753.dhSinglePass_stdDH_sha512kdf_scheme", Verif.Rfc5753.dhSinglePass_stdDH_sha512kdf_scheme, OBJECT_IDENTIFIER, .oid [1, 3, 132, 1, 11, 3], true⟩,
   ⟨"rfc5753.mqvSinglePass_sha1kdf_scheme", Verif.Rfc5753.mqvSinglePass_sha1kdf_scheme, OBJECT_IDENTIFIER, .oid [1, 3, 133, 16, 840, 63, 0, 16], true⟩,
   ⟨"rfc5753.mqvSinglePass_sha224kdf_scheme", Verif.Rfc5753.mqvSinglePass_sha224kdf_scheme, OBJECT_IDENTIFIER, .oid [1, 3, 132, 1, 15, 0], true⟩,
   ⟨"rfc5753.mqvSinglePass_sha256kdf_scheme", Verif.Rfc5753.mqvSinglePass_sha256kdf_scheme, OBJECT_IDENTIFIER, .oid [1, 3, 132, 1, 15, 1], true⟩,
   ⟨"rfc5753.mqvSinglePass_sha384kdf_scheme", Verif.Rfc5753.mqvSinglePass_sha384kdf_scheme, OBJECT_IDENTIFIER, .oid [1, 3, 132, 1, 15, 2], true⟩,
   ⟨"rfc5753.mqvSinglePass_sha512kdf_scheme", Verif.Rfc5753.mqvSinglePass_sha512kdf_scheme, OBJECT_IDENTIFIER, .oid [1, 3, 132, 1, 15, 3], true⟩]

/-- Constants of rfc5753.py the transcription of the standard has no value for. -/
def others : List String :=
  []

def standard : Standard := ⟨Verif.Rfc5753.asModule, entries, beyond, constants, others⟩

end Rfc5753
end Std
end Verif
