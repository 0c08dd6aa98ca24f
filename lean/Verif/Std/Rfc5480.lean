import Verif.Spec.Grade
import Verif.Gen.Rfc5480

/-! The ASN.1 of tools/std/rfc5480.asn1 (generated by tools/stdgen.py). -/

namespace Verif
namespace Std
namespace Rfc5480

open Asn1 Spec.X680

/-- `ECParameters ::=` -/
def ECParameters : Ty :=
  CHOICE [
    mandatory "namedCurve" OBJECT_IDENTIFIER]

/-- `ECPoint ::=` -/
def ECPoint : Ty :=
  OCTET_STRING

/-- `ECDSA-Sig-Value ::=` -/
def ECDSA_Sig_Value : Ty :=
  SEQUENCE [
    mandatory "r" INTEGER,
    mandatory "s" INTEGER]

/-- `DSA-Sig-Value ::=` -/
def DSA_Sig_Value : Ty :=
  SEQUENCE [
    mandatory "r" INTEGER,
    mandatory "s" INTEGER]

/-- `DSA-Parms ::=` -/
def DSA_Parms : Ty :=
  SEQUENCE [
    mandatory "p" INTEGER,
    mandatory "q" INTEGER,
    mandatory "g" INTEGER]

/-- `DSAPublicKey ::=` -/
def DSAPublicKey : Ty :=
  INTEGER

/-- `ValidationParms ::=` -/
def ValidationParms : Ty :=
  SEQUENCE [
    mandatory "seed" BIT_STRING,
    mandatory "pgenCounter" INTEGER]

/-- `DomainParameters ::=` -/
def DomainParameters : Ty :=
  SEQUENCE [
    mandatory "p" INTEGER,
    mandatory "g" INTEGER,
    mandatory "q" INTEGER,
    optional "j" INTEGER,
    optional "validationParms" ValidationParms]

/-- `DHPublicKey ::=` -/
def DHPublicKey : Ty :=
  INTEGER

/-- `KEA-Parms-Id ::=` -/
def KEA_Parms_Id : Ty :=
  OCTET_STRING

/-- `RSAPublicKey ::=` -/
def RSAPublicKey : Ty :=
  SEQUENCE [
    mandatory "modulus" INTEGER,
    mandatory "publicExponent" INTEGER]

/-- Classes of rfc5480.py and the types of the standard they implement. -/
def entries : List Entry :=
  [⟨"rfc5480.DHPublicKey", Verif.Rfc5480.DHPublicKey, DHPublicKey, .same, false⟩,
   ⟨"rfc5480.DSAPublicKey", Verif.Rfc5480.DSAPublicKey, DSAPublicKey, .same, false⟩,
   ⟨"rfc5480.ValidationParms", Verif.Rfc5480.ValidationParms, ValidationParms, .same, false⟩,
   ⟨"rfc5480.DomainParameters", Verif.Rfc5480.DomainParameters, DomainParameters, .same, false⟩,
   ⟨"rfc5480.ECDSA_Sig_Value", Verif.Rfc5480.ECDSA_Sig_Value, ECDSA_Sig_Value, .same, false⟩,
   ⟨"rfc5480.ECPoint", Verif.Rfc5480.ECPoint, ECPoint, .same, false⟩,
   ⟨"rfc5480.KEA_Parms_Id", Verif.Rfc5480.KEA_Parms_Id, KEA_Parms_Id, .same, false⟩,
   ⟨"rfc5480.RSAPublicKey", Verif.Rfc5480.RSAPublicKey, RSAPublicKey, .same, false⟩,
   ⟨"rfc5480.DSA_Sig_Value", Verif.Rfc5480.DSA_Sig_Value, DSA_Sig_Value, .same, false⟩,
   ⟨"rfc5480.ECParameters", Verif.Rfc5480.ECParameters, ECParameters, .same, false⟩]

/-- Classes of rfc5480.py the transcription of the standard has no type for. -/
def beyond : List String :=
  ["rfc5480.DSS_Parms"]

/-- Constants of rfc5480.py and the values the standard gives them. -/
def constants : List Constant :=
  [⟨"rfc5480.id_md2", Verif.Rfc5480.id_md2, OBJECT_IDENTIFIER, .oid [1, 2, 840, 113549, 2, 2], true⟩,
   ⟨"rfc5480.id_md5", Verif.Rfc5480.id_md5, OBJECT_IDENTIFIER, .oid [1, 2, 840, 113549, 2, 5], true⟩,
   ⟨"rfc5480.id_sha1", Verif.Rfc5480.id_sha1, OBJECT_IDENTIFIER, .oid [1, 3, 14, 3, 2, 26], true⟩,
   ⟨"rfc5480.id_sha224", Verif.Rfc5480.id_sha224, OBJECT_IDENTIFIER, .oid [2, 16, 840, 1, 101, 3, 4, 2, 4], true⟩,
   ⟨"rfc5480.id_sha256", Verif.Rfc5480.id_sha256, OBJECT_IDENTIFIER, .oid [2, 16, 840, 1, 101, 3, 4, 2, 1], true⟩,
   ⟨"rfc5480.id_sha384", Verif.Rfc5480.id_sha384, OBJECT_IDENTIFIER, .oid [2, 16, 840, 1, 101, 3, 4, 2, 2], true⟩,
   ⟨"rfc5480.id_sha512", Verif.Rfc5480.id_sha512, OBJECT_IDENTIFIER, .oid [2, 16, 840, 1, 101, 3, 4, 2, 3], true⟩,
   ⟨"rfc5480.rsaEncryption", Verif.Rfc5480.rsaEncryption, OBJECT_IDENTIFIER, .oid [1, 2, 840, 113549, 1, 1, 1], true⟩,
   ⟨"rfc5480.id_dsa", Verif.Rfc5480.id_dsa, OBJECT_IDENTIFIER, .oid [1, 2, 840, 10040, 4, 1], true⟩,
   ⟨"rfc5480.dhpublicnumber", Verif.Rfc5480.dhpublicnumber, OBJECT_IDENTIFIER, .oid [1, 2, 840, 10046, 2, 1], true⟩,
   ⟨"rfc5480.id_keyExchangeAlgorithm", Verif.Rfc5480.id_keyExchangeAlgorithm, OBJECT_IDENTIFIER, .oid [2, 16, 840, 1, 101, 2, 1, 1, 22], true⟩,
   ⟨"rfc5480.id_ecPublicKey", Verif.Rfc5480.id_ecPublicKey, OBJECT_IDENTIFIER, .oid [1, 2, 840, 10045, 2, 1], true⟩,
   ⟨"rfc5480.id_ecDH", Verif.Rfc5480.id_ecDH, OBJECT_IDENTIFIER, .oid [1, 3, 132, 1, 12], true⟩,
   ⟨"rfc5480.id_ecMQV", Verif.Rfc5480.id_ecMQV, OBJECT_IDENTIFIER, .oid [1, 3, 132, 1, 13], true⟩,
   ⟨"rfc5480.md2WithRSAEncryption", Verif.Rfc5480.md2WithRSAEncryption, OBJECT_IDENTIFIER, .oid [1, 2, 840, 113549, 1, 1, 2], true⟩,
   ⟨"rfc5480.md5WithRSAEncryption", Verif.Rfc5480.md5WithRSAEncryption, OBJECT_IDENTIFIER, .oid [1, 2, 840, 113549, 1, 1, 4], true⟩,
   ⟨"rfc5480.sha1WithRSAEncryption", Verif.Rfc5480.sha1WithRSAEncryption, OBJECT_IDENTIFIER, .oid [1, 2, 840, 113549, 1, 1, 5], true⟩,
   ⟨"rfc5480.id_dsa_with_sha1", Verif.Rfc5480.id_dsa_with_sha1, OBJECT_IDENTIFIER, .oid [1, 2, 840, 10040, 4, 3], true⟩,
   ⟨"rfc5480.id_dsa_with_sha224", Verif.Rfc5480.id_dsa_with_sha224, OBJECT_IDENTIFIER, .oid [2, 16, 840, 1, 101, 3, 4, 3, 1], true⟩,
   ⟨"rfc5480.id_dsa_with_sha256", Verif.Rfc5480.id_dsa_with_sha256, OBJECT_IDENTIFIER, .oid [2, 16, 840, 1, 101, 3, 4, 3, 2], true⟩,
   ⟨"rfc5480.ecdsa_with_SHA1", Verif.Rfc5480.ecdsa_with_SHA1, OBJECT_IDENTIFIER, .oid [1, 2, 840, 10045, 4, 1], true⟩,
   ⟨"rfc5480.ecdsa_with_SHA224", Verif.Rfc5480.ecdsa_with_SHA224, OBJECT_IDENTIFIER, .oid [1, 2, 840, 10045, 4, 3, 1], true⟩,
   ⟨"rfc5480.ecdsa_with_SHA256", Verif.Rfc5480.ecdsa_with_SHA256, OBJECT_IDENTIFIER, .oid [1, 2, 840, 10045, 4, 3, 2], true⟩,
   ⟨"rfc5480.ecdsa_with_SHA384", Verif.Rfc5480.ecdsa_with_SHA384, OBJECT_IDENTIFIER, .oid [1, 2, 840, 10045, 4, 3, 3], true⟩,
   ⟨"rfc5480.ecdsa_with_SHA512", Verif.Rfc5480.ecdsa_with_SHA512, OBJECT_IDENTIFIER, .oid [1, 2, 840, 10045, 4, 3, 4], true⟩,
   ⟨"rfc5480.secp192r1", Verif.Rfc5480.secp192r1, OBJECT_IDENTIFIER, .oid [1, 2, 840, 10045, 3, 1, 1], true⟩,
   ⟨"rfc5480.sect163k1", Verif.Rfc5480.sect163k1, OBJECT_IDENTIFIER, .oid [1, 3, 132, 0, 1], true⟩,
   ⟨"rfc5480.sect163r2", Verif.Rfc5480.sect163r2, OBJECT_IDENTIFIER, .oid [1, 3, 132, 0, 15], true⟩,
   ⟨"rfc5480.secp224r1", Verif.Rfc5480.secp224r1, OBJECT_IDENTIFIER, .oid [1, 3, 132, 0, 33], true⟩,
   ⟨"rfc5480.sect233k1", Verif.Rfc5480.sect233k1, OBJECT_IDENTIFIER, .oid [1, 3, 132, 0, 26], true⟩,
   ⟨"rfc5480.sect233r1", Verif.Rfc5480.sect233r1, OBJECT_IDENTIFIER, .oid [1, 3, 132, 0, 27], true⟩,
   ⟨"rfc5480.secp256r1", Verif.Rfc5480.secp256r1, OBJECT_IDENTIFIER, .oid [1, 2, 840, 10045, 3, 1, 7], true⟩,
   ⟨"rfc5480.sect283k1", Verif.Rfc5480.sect283k1, OBJECT_IDENTIFIER, .oid [1, 3, 132, 0, 16], true⟩,
   ⟨"rfc5480.sect283r1", Verif.Rfc5480.sect283r1, OBJECT_IDENTIFIER, .oid [1, 3, 132, 0, 17], true⟩,
   ⟨"rfc5480.secp384r1", Verif.Rfc5480.secp384r1, OBJECT_IDENTIFIER, .oid [1, 3, 132, 0, 34], true⟩,
   ⟨"rfc5480.sect409k1", Verif.Rfc5480.sect409k1, OBJECT_IDENTIFIER, .oid [1, 3, 132, 0, 36], true⟩,
   ⟨"rfc5480.sect409r1", Verif.Rfc5480.sect409r1, OBJECT_IDENTIFIER, .oid [1, 3, 132, 0, 37], true⟩,
   ⟨"rfc5480.secp521r1", Verif.Rfc5480.secp521r1, OBJECT_IDENTIFIER, .oid [1, 3, 132, 0, 35], true⟩,
   ⟨"rfc5480.sect571k1", Verif.Rfc5480.sect571k1, OBJECT_IDENTIFIER, .oid [1, 3, 132, 0, 38], true⟩,
   ⟨"rfc5480.sect571r1", Verif.Rfc5480.sect571r1, OBJECT_IDENTIFIER, .oid [1, 3, 132, 0, 39], true⟩]

/-- Constants of rfc5480.py the transcription of the standard has no value for. -/
def others : List String :=
  []

def standard : Standard := ⟨Verif.Rfc5480.asModule, entries, beyond, constants, others⟩

end Rfc5480
end Std
end Verif
