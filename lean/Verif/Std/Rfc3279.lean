import Verif.Spec.Grade
import Verif.Gen.Rfc3279

/-! The ASN.1 of tools/std/rfc3279.asn1 (generated by tools/stdgen.py). -/

namespace Verif
namespace Std
namespace Rfc3279

open Asn1 Spec.X680

/-- `DSAPublicKey ::=` -/
def DSAPublicKey : Ty :=
  INTEGER

/-- `Dss-Parms ::=` -/
def Dss_Parms : Ty :=
  SEQUENCE [
    mandatory "p" INTEGER,
    mandatory "q" INTEGER,
    mandatory "g" INTEGER]

/-- `Dss-Sig-Value ::=` -/
def Dss_Sig_Value : Ty :=
  SEQUENCE [
    mandatory "r" INTEGER,
    mandatory "s" INTEGER]

/-- `RSAPublicKey ::=` -/
def RSAPublicKey : Ty :=
  SEQUENCE [
    mandatory "modulus" INTEGER,
    mandatory "publicExponent" INTEGER]

/-- `DHPublicKey ::=` -/
def DHPublicKey : Ty :=
  INTEGER

/-- `ValidationParms ::=` -/
def ValidationParms : Ty :=
  SEQUENCE [
    mandatory "seed" BIT_STRING,
    mandatory "pgenCounter" INTEGER]

/-- `DomainParameters ::=` -/
def DomainParameters : Ty :=
  SEQUENCE [
    mandatory "p" INTEGER,
    mandatory "g" INTEGER,
    mandatory "q" INTEGER,
    optional "j" INTEGER,
    optional "validationParms" ValidationParms]

/-- `KEA-Parms-Id ::=` -/
def KEA_Parms_Id : Ty :=
  OCTET_STRING

/-- `FieldID ::=` -/
def FieldID : Ty :=
  SEQUENCE [
    mandatory "fieldType" OBJECT_IDENTIFIER,
    mandatory "parameters" ANY]

/-- `ECDSA-Sig-Value ::=` -/
def ECDSA_Sig_Value : Ty :=
  SEQUENCE [
    mandatory "r" INTEGER,
    mandatory "s" INTEGER]

/-- `Prime-p ::=` -/
def Prime_p : Ty :=
  INTEGER

/-- `Characteristic-two ::=` -/
def Characteristic_two : Ty :=
  SEQUENCE [
    mandatory "m" INTEGER,
    mandatory "basis" OBJECT_IDENTIFIER,
    mandatory "parameters" ANY]

/-- `Trinomial ::=` -/
def Trinomial : Ty :=
  INTEGER

/-- `Pentanomial ::=` -/
def Pentanomial : Ty :=
  SEQUENCE [
    mandatory "k1" INTEGER,
    mandatory "k2" INTEGER,
    mandatory "k3" INTEGER]

/-- `FieldElement ::=` -/
def FieldElement : Ty :=
  OCTET_STRING

/-- `ECPoint ::=` -/
def ECPoint : Ty :=
  OCTET_STRING

/-- `ECPVer ::=` -/
def ECPVer : Ty :=
  named [("ecpVer1", 1)] INTEGER

/-- `Curve ::=` -/
def Curve : Ty :=
  SEQUENCE [
    mandatory "a" FieldElement,
    mandatory "b" FieldElement,
    optional "seed" BIT_STRING]

/-- `ECParameters ::=` -/
def ECParameters : Ty :=
  SEQUENCE [
    mandatory "version" ECPVer,
    mandatory "fieldID" FieldID,
    mandatory "curve" Curve,
    mandatory "base" ECPoint,
    mandatory "order" INTEGER,
    optional "cofactor" INTEGER]

/-- `EcpkParameters ::=` -/
def EcpkParameters : Ty :=
  CHOICE [
    mandatory "ecParameters" ECParameters,
    mandatory "namedCurve" OBJECT_IDENTIFIER,
    mandatory "implicitlyCA" NULL]

/-- Classes of rfc3279.py and the types of the standard they implement. -/
def entries : List Entry :=
  [⟨"rfc3279.DSAPublicKey", Verif.Rfc3279.DSAPublicKey, DSAPublicKey, .same, false⟩,
   ⟨"rfc3279.Dss_Parms", Verif.Rfc3279.Dss_Parms, Dss_Parms, .same, false⟩,
   ⟨"rfc3279.Dss_Sig_Value", Verif.Rfc3279.Dss_Sig_Value, Dss_Sig_Value, .same, false⟩,
   ⟨"rfc3279.RSAPublicKey", Verif.Rfc3279.RSAPublicKey, RSAPublicKey, .same, false⟩,
   ⟨"rfc3279.DHPublicKey", Verif.Rfc3279.DHPublicKey, DHPublicKey, .same, false⟩,
   ⟨"rfc3279.ValidationParms", Verif.Rfc3279.ValidationParms, ValidationParms, .same, false⟩,
   ⟨"rfc3279.DomainParameters", Verif.Rfc3279.DomainParameters, DomainParameters, .same, false⟩,
   ⟨"rfc3279.KEA_Parms_Id", Verif.Rfc3279.KEA_Parms_Id, KEA_Parms_Id, .same, false⟩,
   ⟨"rfc3279.FieldID", Verif.Rfc3279.FieldID, FieldID, .same, false⟩,
   ⟨"rfc3279.ECDSA_Sig_Value", Verif.Rfc3279.ECDSA_Sig_Value, ECDSA_Sig_Value, .same, false⟩,
   ⟨"rfc3279.Prime_p", Verif.Rfc3279.Prime_p, Prime_p, .same, false⟩,
   ⟨"rfc3279.Characteristic_two", Verif.Rfc3279.Characteristic_two, Characteristic_two, .same, false⟩,
   ⟨"rfc3279.Trinomial", Verif.Rfc3279.Trinomial, Trinomial, .same, false⟩,
   ⟨"rfc3279.Pentanomial", Verif.Rfc3279.Pentanomial, Pentanomial, .same, false⟩,
   ⟨"rfc3279.FieldElement", Verif.Rfc3279.FieldElement, FieldElement, .same, false⟩,
   ⟨"rfc3279.ECPoint", Verif.Rfc3279.ECPoint, ECPoint, .same, false⟩,
   ⟨"rfc3279.Curve", Verif.Rfc3279.Curve, Curve, .same, false⟩,
   ⟨"rfc3279.ECPVer", Verif.Rfc3279.ECPVer, ECPVer, .same, false⟩,
   ⟨"rfc3279.ECParameters", Verif.Rfc3279.ECParameters, ECParameters, .same, false⟩,
   ⟨"rfc3279.EcpkParameters", Verif.Rfc3279.EcpkParameters, EcpkParameters, .same, false⟩]

/-- Classes of rfc3279.py the transcription of the standard has no type for. -/
def beyond : List String :=
  []

/-- Constants of rfc3279.py and the values the standard gives them. -/
def constants : List Constant :=
  [⟨"rfc3279.md2", Verif.Rfc3279.md2, OBJECT_IDENTIFIER, .oid [1, 2, 840, 113549, 2, 2], true⟩,
   ⟨"rfc3279.md5", Verif.Rfc3279.md5, OBJECT_IDENTIFIER, .oid [1, 2, 840, 113549, 2, 5], true⟩,
   ⟨"rfc3279.id_sha1", Verif.Rfc3279.id_sha1, OBJECT_IDENTIFIER, .oid [1, 3, 14, 3, 2, 26], true⟩,
   ⟨"rfc3279.id_dsa", Verif.Rfc3279.id_dsa, OBJECT_IDENTIFIER, .oid [1, 2, 840, 10040, 4, 1], true⟩,
   ⟨"rfc3279.id_dsa_with_sha1", Verif.Rfc3279.id_dsa_with_sha1, OBJECT_IDENTIFIER, .oid [1, 2, 840, 10040, 4, 3], true⟩,
   ⟨"rfc3279.pkcs_1", Verif.Rfc3279.pkcs_1, OBJECT_IDENTIFIER, .oid [1, 2, 840, 113549, 1, 1], true⟩,
   ⟨"rfc3279.rsaEncryption", Verif.Rfc3279.rsaEncryption, OBJECT_IDENTIFIER, .oid [1, 2, 840, 113549, 1, 1, 1], true⟩,
   ⟨"rfc3279.md2WithRSAEncryption", Verif.Rfc3279.md2WithRSAEncryption, OBJECT_IDENTIFIER, .oid [1, 2, 840, 113549, 1, 1, 2], true⟩,
   ⟨"rfc3279.md5WithRSAEncryption", Verif.Rfc3279.md5WithRSAEncryption, OBJECT_IDENTIFIER, .oid [1, 2, 840, 113549, 1, 1, 4], true⟩,
   ⟨"rfc3279.sha1WithRSAEncryption", Verif.Rfc3279.sha1WithRSAEncryption, OBJECT_IDENTIFIER, .oid [1, 2, 840, 113549, 1, 1, 5], true⟩,
   ⟨"rfc3279.dhpublicnumber", Verif.Rfc3279.dhpublicnumber, OBJECT_IDENTIFIER, .oid [1, 2, 840, 10046, 2, 1], true⟩,
   ⟨"rfc3279.id_keyExchangeAlgorithm", Verif.Rfc3279.id_keyExchangeAlgorithm, OBJECT_IDENTIFIER, .oid [2, 16, 840, 1, 101, 2, 1, 1, 22], true⟩,
   ⟨"rfc3279.ansi_X9_62", Verif.Rfc3279.ansi_X9_62, OBJECT_IDENTIFIER, .oid [1, 2, 840, 10045], true⟩,
   ⟨"rfc3279.id_ecSigType", Verif.Rfc3279.id_ecSigType, OBJECT_IDENTIFIER, .oid [1, 2, 840, 10045, 4], true⟩,
   ⟨"rfc3279.ecdsa_with_SHA1", Verif.Rfc3279.ecdsa_with_SHA1, OBJECT_IDENTIFIER, .oid [1, 2, 840, 10045, 4, 1], true⟩,
   ⟨"rfc3279.id_fieldType", Verif.Rfc3279.id_fieldType, OBJECT_IDENTIFIER, .oid [1, 2, 840, 10045, 1], true⟩,
   ⟨"rfc3279.prime_field", Verif.Rfc3279.prime_field, OBJECT_IDENTIFIER, .oid [1, 2, 840, 10045, 1, 1], true⟩,
   ⟨"rfc3279.characteristic_two_field", Verif.Rfc3279.characteristic_two_field, OBJECT_IDENTIFIER, .oid [1, 2, 840, 10045, 1, 2], true⟩,
   ⟨"rfc3279.id_characteristic_two_basis", Verif.Rfc3279.id_characteristic_two_basis, OBJECT_IDENTIFIER, .oid [1, 2, 840, 10045, 1, 2, 3], true⟩,
   ⟨"rfc3279.gnBasis", Verif.Rfc3279.gnBasis, OBJECT_IDENTIFIER, .oid [1, 2, 840, 10045, 1, 2, 3, 1], true⟩,
   ⟨"rfc3279.tpBasis", Verif.Rfc3279.tpBasis, OBJECT_IDENTIFIER, .oid [1, 2, 840, 10045, 1, 2, 3, 2], true⟩,
   ⟨"rfc3279.ppBasis", Verif.Rfc3279.ppBasis, OBJECT_IDENTIFIER, .oid [1, 2, 840, 10045, 1, 2, 3, 3], true⟩,
   ⟨"rfc3279.id_publicKeyType", Verif.Rfc3279.id_publicKeyType, OBJECT_IDENTIFIER, .oid [1, 2, 840, 10045, 2], true⟩,
   ⟨"rfc3279.id_ecPublicKey", Verif.Rfc3279.id_ecPublicKey, OBJECT_IDENTIFIER, .oid [1, 2, 840, 10045, 2, 1], true⟩,
   ⟨"rfc3279.ellipticCurve", Verif.Rfc3279.ellipticCurve, OBJECT_IDENTIFIER, .oid [1, 2, 840, 10045, 3], true⟩,
   ⟨"rfc3279.c_TwoCurve", Verif.Rfc3279.c_TwoCurve, OBJECT_IDENTIFIER, .oid [1, 2, 840, 10045, 3, 0], true⟩,
   ⟨"rfc3279.c2pnb163v1", Verif.Rfc3279.c2pnb163v1, OBJECT_IDENTIFIER, .oid [1, 2, 840, 10045, 3, 0, 1], true⟩,
   ⟨"rfc3279.c2pnb163v2", Verif.Rfc3279.c2pnb163v2, OBJECT_IDENTIFIER, .oid [1, 2, 840, 10045, 3, 0, 2], true⟩,
   ⟨"rfc3279.c2pnb163v3", Verif.Rfc3279.c2pnb163v3, OBJECT_IDENTIFIER, .oid [1, 2, 840, 10045, 3, 0, 3], true⟩,
   ⟨"rfc3279.c2pnb176w1", Verif.Rfc3279.c2pnb176w1, OBJECT_IDENTIFIER, .oid [1, 2, 840, 10045, 3, 0, 4], true⟩,
   ⟨"rfc3279.c2tnb191v1", Verif.Rfc3279.c2tnb191v1, OBJECT_IDENTIFIER, .oid [1, 2, 840, 10045, 3, 0, 5], true⟩,
   ⟨"rfc3279.c2tnb191v2", Verif.Rfc3279.c2tnb191v2, OBJECT_IDENTIFIER, .oid [1, 2, 840, 10045, 3, 0, 6], true⟩,
   ⟨"rfc3279.c2tnb191v3", Verif.Rfc3279.c2tnb191v3, OBJECT_IDENTIFIER, .oid [1, 2, 840, 10045, 3, 0, 7], true⟩,
   ⟨"rfc3279.c2onb191v4", Verif.Rfc3279.c2onb191v4, OBJECT_IDENTIFIER, .oid [1, 2, 840, 10045, 3, 0, 8], true⟩,
   ⟨"rfc3279.c2onb191v5", Verif.Rfc3279.c2onb191v5, OBJECT_IDENTIFIER, .oid [1, 2, 840, 10045, 3, 0, 9], true⟩,
   ⟨"rfc3279.c2pnb208w1", Verif.Rfc3279.c2pnb208w1, OBJECT_IDENTIFIER, .oid [1, 2, 840, 10045, 3, 0, 10], true⟩,
   ⟨"rfc3279.c2tnb239v1", Verif.Rfc3279.c2tnb239v1, OBJECT_IDENTIFIER, .oid [1, 2, 840, 10045, 3, 0, 11], true⟩,
   ⟨"rfc3279.c2tnb239v2", Verif.Rfc3279.c2tnb239v2, OBJECT_IDENTIFIER, .oid [1, 2, 840, 10045, 3, 0, 12], true⟩,
   ⟨"rfc3279.c2tnb239v3", Verif.Rfc3279.c2tnb239v3, OBJECT_IDENTIFIER, .oid [1, 2, 840, 10045, 3, 0, 13], true⟩,
   ⟨"rfc3279.c2onb239v4", Verif.Rfc3279.c2onb239v4, OBJECT_IDENTIFIER, .oid [1, 2, 840, 10045, 3, 0, 14], true⟩,
   ⟨"rfc3279.c2onb239v5", Verif.Rfc3279.c2onb239v5, OBJECT_IDENTIFIER, .oid [1, 2, 840, 10045, 3, 0, 15], true⟩,
   ⟨"rfc3279.c2pnb272w1", Verif.Rfc3279.c2pnb272w1, OBJECT_IDENTIFIER, .oid [1, 2, 840, 10045, 3, 0, 16], true⟩,
   ⟨"rfc3279.c2pnb304w1", Verif.Rfc3279.c2pnb304w1, OBJECT_IDENTIFIER, .oid [1, 2, 840, 10045, 3, 0, 17], true⟩,
   ⟨"rfc3279.c2tnb359v1", Verif.Rfc3279.c2tnb359v1, OBJECT_IDENTIFIER, .oid [1, 2, 840, 10045, 3, 0, 18], true⟩,
   ⟨"rfc3279.c2pnb368w1", Verif.Rfc3279.c2pnb368w1, OBJECT_IDENTIFIER, .oid [1, 2, 840, 10045, 3, 0, 19], true⟩,
   ⟨"rfc3279.c2tnb431r1", Verif.Rfc3279.c2tnb431r1, OBJECT_IDENTIFIER, .oid [1, 2, 840, 10045, 3, 0, 20], true⟩,
   ⟨"rfc3279.primeCurve", Verif.Rfc3279.primeCurve, OBJECT_IDENTIFIER, .oid [1, 2, 840, 10045, 3, 1], true⟩,
   ⟨"rfc3279.prime192v1", Verif.Rfc3279.prime192v1, OBJECT_IDENTIFIER, .oid [1, 2, 840, 10045, 3, 1, 1], true⟩,
   ⟨"rfc3279.prime192v2", Verif.Rfc3279.prime192v2, OBJECT_IDENTIFIER, .oid [1, 2, 840, 10045, 3, 1, 2], true⟩,
   ⟨"rfc3279.prime192v3", Verif.Rfc3279.prime192v3, OBJECT_IDENTIFIER, .oid [1, 2, 840, 10045, 3, 1, 3], true⟩,
   ⟨"rfc3279.prime239v1", Verif.Rfc3279.prime239v1, OBJECT_IDENTIFIER, .oid [1, 2, 840, 10045, 3, 1, 4], true⟩,
   ⟨"rfc3279.prime239v2", Verif.Rfc3279.prime239v2, OBJECT_IDENTIFIER, .oid [1, 2, 840, 10045, 3, 1, 5], true⟩,
   ⟨"rfc3279.prime239v3", Verif.Rfc3279.prime239v3, OBJECT_IDENTIFIER, .oid [1, 2, 840, 10045, 3, 1, 6], true⟩,
   ⟨"rfc3279.prime256v1", Verif.Rfc3279.prime256v1, OBJECT_IDENTIFIER, .oid [1, 2, 840, 10045, 3, 1, 7], true⟩]

/-- Constants of rfc3279.py the transcription of the standard has no value for. -/
def others : List String :=
  []

def standard : Standard := ⟨Verif.Rfc3279.asModule, entries, beyond, constants, others⟩

end Rfc3279
end Std
end Verif
