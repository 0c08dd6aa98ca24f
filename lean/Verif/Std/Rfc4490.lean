import Verif.Spec.Grade
import Verif.Gen.Rfc4490
import Verif.Std.Rfc4357
import Verif.Std.Rfc5280

/-! The ASN.1 of tools/std/rfc4490.asn1 (generated by tools/stdgen.py). -/

namespace Verif
namespace Std
namespace Rfc4490

open Asn1 Spec.X680

/-- `Gost28147-89-KeyWrapParameters ::=` -/
def Gost28147_89_KeyWrapParameters : Ty :=
  SEQUENCE [
    mandatory "encryptionParamSet" Std.Rfc4357.Gost28147_89_ParamSet,
    optional "ukm" (constrained (SIZE 8 8) OCTET_STRING)]

/-- `GostR3410-TransportParameters ::=` -/
def GostR3410_TransportParameters : Ty :=
  SEQUENCE [
    mandatory "encryptionParamSet" Std.Rfc4357.Gost28147_89_ParamSet,
    optional "ephemeralPublicKey" (implicit .context 0 Std.Rfc5280.SubjectPublicKeyInfo),
    mandatory "ukm" (constrained (SIZE 8 8) OCTET_STRING)]

/-- `GostR3410-KeyTransport ::=` -/
def GostR3410_KeyTransport : Ty :=
  SEQUENCE [
    mandatory "sessionEncryptedKey" Std.Rfc4357.Gost28147_89_EncryptedKey,
    optional "transportParameters" (implicit .context 0 GostR3410_TransportParameters)]

/-- `GostR3410-94-Signature ::=` -/
def GostR3410_94_Signature : Ty :=
  constrained (SIZE 64 64) OCTET_STRING

/-- `GostR3410-2001-Signature ::=` -/
def GostR3410_2001_Signature : Ty :=
  constrained (SIZE 64 64) OCTET_STRING

/-- Classes of rfc4490.py and the types of the standard they implement. -/
def entries : List Entry :=
  [⟨"rfc4490.Gost28147_89_ParamSet", Verif.Rfc4490.Gost28147_89_ParamSet, Std.Rfc4357.Gost28147_89_ParamSet, .same, false⟩,
   ⟨"rfc4490.Gost28147_89_EncryptedKey", Verif.Rfc4490.Gost28147_89_EncryptedKey, Std.Rfc4357.Gost28147_89_EncryptedKey, .relaxed, false⟩,
   ⟨"rfc4490.SubjectPublicKeyInfo", Verif.Rfc4490.SubjectPublicKeyInfo, Std.Rfc5280.SubjectPublicKeyInfo, .same, false⟩,
   ⟨"rfc4490.Gost28147_89_KeyWrapParameters", Verif.Rfc4490.Gost28147_89_KeyWrapParameters, Gost28147_89_KeyWrapParameters, .same, false⟩,
   ⟨"rfc4490.GostR3410_TransportParameters", Verif.Rfc4490.GostR3410_TransportParameters, GostR3410_TransportParameters, .same, false⟩,
   ⟨"rfc4490.GostR3410_KeyTransport", Verif.Rfc4490.GostR3410_KeyTransport, GostR3410_KeyTransport, .relaxed, false⟩,
   ⟨"rfc4490.GostR3410_94_Signature", Verif.Rfc4490.GostR3410_94_Signature, GostR3410_94_Signature, .same, false⟩,
   ⟨"rfc4490.GostR3410_2001_Signature", Verif.Rfc4490.GostR3410_2001_Signature, GostR3410_2001_Signature, .same, false⟩]

/-- Classes of rfc4490.py the transcription of the standard has no type for. -/
def beyond : List String :=
  ["rfc4490.GostR3410_94_PublicKeyParameters",
   "rfc4490.GostR3410_2001_PublicKeyParameters"]

/-- Constants of rfc4490.py and the values the standard gives them. -/
def constants : List Constant :=
  [⟨"rfc4490.id_CryptoPro_algorithms", Verif.Rfc4490.id_CryptoPro_algorithms, OBJECT_IDENTIFIER, .oid [1, 2, 643, 2, 2], true⟩,
   ⟨"rfc4490.id_GostR3410_94", Verif.Rfc4490.id_GostR3410_94, OBJECT_IDENTIFIER, .oid [1, 2, 643, 2, 2, 20], true⟩,
   ⟨"rfc4490.id_GostR3410_2001", Verif.Rfc4490.id_GostR3410_2001, OBJECT_IDENTIFIER, .oid [1, 2, 643, 2, 2, 19], true⟩,
   ⟨"rfc4490.id_Gost28147_89_CryptoPro_KeyWrap", Verif.Rfc4490.id_Gost28147_89_CryptoPro_KeyWrap, OBJECT_IDENTIFIER, .oid [1, 2, 643, 2, 2, 13, 1], true⟩,
   ⟨"rfc4490.id_Gost28147_89_None_KeyWrap", Verif.Rfc4490.id_Gost28147_89_None_KeyWrap, OBJECT_IDENTIFIER, .oid [1, 2, 643, 2, 2, 13, 0], true⟩,
   ⟨"rfc4490.id_GostR3410_2001_CryptoPro_ESDH", Verif.Rfc4490.id_GostR3410_2001_CryptoPro_ESDH, OBJECT_IDENTIFIER, .oid [1, 2, 643, 2, 2, 96], true⟩,
   ⟨"rfc4490.id_GostR3410_94_CryptoPro_ESDH", Verif.Rfc4490.id_GostR3410_94_CryptoPro_ESDH, OBJECT_IDENTIFIER, .oid [1, 2, 643, 2, 2, 97], true⟩]

/-- Constants of rfc4490.py the transcription of the standard has no value for. -/
def others : List String :=
  ["rfc4490.id_GostR3410_2001_KeyTransportSMIMECapability",
   "rfc4490.id_GostR3410_94_KeyTransportSMIMECapability"]

def standard : Standard := ⟨Verif.Rfc4490.asModule, entries, beyond, constants, others⟩

end Rfc4490
end Std
end Verif
