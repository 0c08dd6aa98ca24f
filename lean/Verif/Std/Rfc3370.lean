import Verif.Spec.Grade
import Verif.Gen.Rfc3370
import Verif.Std.Rfc3279
import Verif.Std.Rfc5280
import Verif.Std.Rfc8018

/-! The ASN.1 of tools/std/rfc3370.asn1 (generated by tools/stdgen.py). -/

namespace Verif
namespace Std
namespace Rfc3370

open Asn1 Spec.X680

/-- `Dss-Pub-Key ::=` -/
def Dss_Pub_Key : Ty :=
  INTEGER

/-- `KeyWrapAlgorithm ::=` -/
def KeyWrapAlgorithm : Ty :=
  Std.Rfc5280.AlgorithmIdentifier

/-- `RC2ParameterVersion ::=` -/
def RC2ParameterVersion : Ty :=
  INTEGER

/-- `RC2wrapParameter ::=` -/
def RC2wrapParameter : Ty :=
  RC2ParameterVersion

/-- `IV ::=` -/
def IV : Ty :=
  constrained (SIZE 8 8) OCTET_STRING

/-- `CBCParameter ::=` -/
def CBCParameter : Ty :=
  IV

/-- `RC2CBCParameter ::=` -/
def RC2CBCParameter : Ty :=
  SEQUENCE [
    mandatory "rc2ParameterVersion" RC2ParameterVersion,
    mandatory "iv" (constrained (SIZE 8 8) OCTET_STRING)]

/-- Classes of rfc3370.py and the types of the standard they implement. -/
def entries : List Entry :=
  [⟨"rfc3370.AlgorithmIdentifier", Verif.Rfc3370.AlgorithmIdentifier, Std.Rfc5280.AlgorithmIdentifier, .same, false⟩,
   ⟨"rfc3370.DHPublicKey", Verif.Rfc3370.DHPublicKey, Std.Rfc3279.DHPublicKey, .same, false⟩,
   ⟨"rfc3370.DomainParameters", Verif.Rfc3370.DomainParameters, Std.Rfc3279.DomainParameters, .same, false⟩,
   ⟨"rfc3370.Dss_Parms", Verif.Rfc3370.Dss_Parms, Std.Rfc3279.Dss_Parms, .same, false⟩,
   ⟨"rfc3370.Dss_Sig_Value", Verif.Rfc3370.Dss_Sig_Value, Std.Rfc3279.Dss_Sig_Value, .same, false⟩,
   ⟨"rfc3370.RSAPublicKey", Verif.Rfc3370.RSAPublicKey, Std.Rfc3279.RSAPublicKey, .same, false⟩,
   ⟨"rfc3370.ValidationParms", Verif.Rfc3370.ValidationParms, Std.Rfc3279.ValidationParms, .same, false⟩,
   ⟨"rfc3370.CBCParameter", Verif.Rfc3370.CBCParameter, CBCParameter, .relaxed, false⟩,
   ⟨"rfc3370.KeyWrapAlgorithm", Verif.Rfc3370.KeyWrapAlgorithm, KeyWrapAlgorithm, .same, false⟩,
   ⟨"rfc3370.RC2CBCParameter", Verif.Rfc3370.RC2CBCParameter, RC2CBCParameter, .widened, false⟩,
   ⟨"rfc3370.PBKDF2_params", Verif.Rfc3370.PBKDF2_params, Std.Rfc8018.PBKDF2_params, .same, false⟩,
   ⟨"rfc3370.RC2ParameterVersion", Verif.Rfc3370.RC2ParameterVersion, RC2ParameterVersion, .same, false⟩,
   ⟨"rfc3370.RC2wrapParameter", Verif.Rfc3370.RC2wrapParameter, RC2wrapParameter, .same, false⟩,
   ⟨"rfc3370.Dss_Pub_Key", Verif.Rfc3370.Dss_Pub_Key, Dss_Pub_Key, .same, false⟩]

/-- Classes of rfc3370.py the transcription of the standard has no type for. -/
def beyond : List String :=
  ["rfc3370.DHDomainParameters",
   "rfc3370.RC2_CBC_Parameter"]

/-- Constants of rfc3370.py and the values the standard gives them. -/
def constants : List Constant :=
  [⟨"rfc3370.dhpublicnumber", Verif.Rfc3370.dhpublicnumber, OBJECT_IDENTIFIER, .oid [1, 2, 840, 10046, 2, 1], true⟩,
   ⟨"rfc3370.dh_public_number", Verif.Rfc3370.dh_public_number, OBJECT_IDENTIFIER, .oid [1, 2, 840, 10046, 2, 1], true⟩,
   ⟨"rfc3370.md5", Verif.Rfc3370.md5, OBJECT_IDENTIFIER, .oid [1, 2, 840, 113549, 2, 5], true⟩,
   ⟨"rfc3370.md5WithRSAEncryption", Verif.Rfc3370.md5WithRSAEncryption, OBJECT_IDENTIFIER, .oid [1, 2, 840, 113549, 1, 1, 4], true⟩,
   ⟨"rfc3370.rsaEncryption", Verif.Rfc3370.rsaEncryption, OBJECT_IDENTIFIER, .oid [1, 2, 840, 113549, 1, 1, 1], true⟩,
   ⟨"rfc3370.id_dsa", Verif.Rfc3370.id_dsa, OBJECT_IDENTIFIER, .oid [1, 2, 840, 10040, 4, 1], true⟩,
   ⟨"rfc3370.id_dsa_with_sha1", Verif.Rfc3370.id_dsa_with_sha1, OBJECT_IDENTIFIER, .oid [1, 2, 840, 10040, 4, 3], true⟩,
   ⟨"rfc3370.id_sha1", Verif.Rfc3370.id_sha1, OBJECT_IDENTIFIER, .oid [1, 3, 14, 3, 2, 26], true⟩,
   ⟨"rfc3370.sha_1", Verif.Rfc3370.sha_1, OBJECT_IDENTIFIER, .oid [1, 3, 14, 3, 2, 26], true⟩,
   ⟨"rfc3370.sha1WithRSAEncryption", Verif.Rfc3370.sha1WithRSAEncryption, OBJECT_IDENTIFIER, .oid [1, 2, 840, 113549, 1, 1, 5], true⟩,
   ⟨"rfc3370.id_alg_CMS3DESwrap", Verif.Rfc3370.id_alg_CMS3DESwrap, OBJECT_IDENTIFIER, .oid [1, 2, 840, 113549, 1, 9, 16, 3, 6], true⟩,
   ⟨"rfc3370.des_EDE3_CBC", Verif.Rfc3370.des_EDE3_CBC, OBJECT_IDENTIFIER, .oid [1, 2, 840, 113549, 3, 7], true⟩,
   ⟨"rfc3370.des_ede3_cbc", Verif.Rfc3370.des_ede3_cbc, OBJECT_IDENTIFIER, .oid [1, 2, 840, 113549, 3, 7], true⟩,
   ⟨"rfc3370.rc2CBC", Verif.Rfc3370.rc2CBC, OBJECT_IDENTIFIER, .oid [1, 2, 840, 113549, 3, 2], true⟩,
   ⟨"rfc3370.rc2_cbc", Verif.Rfc3370.rc2_cbc, OBJECT_IDENTIFIER, .oid [1, 2, 840, 113549, 3, 2], true⟩,
   ⟨"rfc3370.id_PBKDF2", Verif.Rfc3370.id_PBKDF2, OBJECT_IDENTIFIER, .oid [1, 2, 840, 113549, 1, 5, 12], true⟩,
   ⟨"rfc3370.hMAC_SHA1", Verif.Rfc3370.hMAC_SHA1, OBJECT_IDENTIFIER, .oid [1, 3, 6, 1, 5, 5, 8, 1, 2], true⟩,
   ⟨"rfc3370.id_alg_ESDH", Verif.Rfc3370.id_alg_ESDH, OBJECT_IDENTIFIER, .oid [1, 2, 840, 113549, 1, 9, 16, 3, 5], true⟩,
   ⟨"rfc3370.id_alg_SSDH", Verif.Rfc3370.id_alg_SSDH, OBJECT_IDENTIFIER, .oid [1, 2, 840, 113549, 1, 9, 16, 3, 10], true⟩,
   ⟨"rfc3370.id_alg_CMSRC2wrap", Verif.Rfc3370.id_alg_CMSRC2wrap, OBJECT_IDENTIFIER, .oid [1, 2, 840, 113549, 1, 9, 16, 3, 7], true⟩]

/-- Constants of rfc3370.py the transcription of the standard has no value for. -/
def others : List String :=
  []

def standard : Standard := ⟨Verif.Rfc3370.asModule, entries, beyond, constants, others⟩

end Rfc3370
end Std
end Verif
