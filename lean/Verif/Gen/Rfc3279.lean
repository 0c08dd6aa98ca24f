import Verif.Py.Obj
import Verif.Gen.Rfc5280

/-! Transcription of /repo/pyasn1_modules/rfc3279.py (generated by tools/gen.py). -/

namespace Verif
namespace Rfc3279

/-- rfc3279.py:21-29 `def _OID(*components)` -/
def _OID (components : List Py.OidArg) : Py.Obj :=
  match Py.oidLoop [] components with
  | some output => Py.univ.ObjectIdentifier.call.callArcs output
  | none => .fail "OID without value"

/-- rfc3279.py:32 -/
def md2 : Py.Obj :=
  (Rfc3279._OID [.num 1, .num 2, .num 840, .num 113549, .num 2, .num 2])

/-- rfc3279.py:33 -/
def md5 : Py.Obj :=
  (Rfc3279._OID [.num 1, .num 2, .num 840, .num 113549, .num 2, .num 5])

/-- rfc3279.py:34 -/
def id_sha1 : Py.Obj :=
  (Rfc3279._OID [.num 1, .num 3, .num 14, .num 3, .num 2, .num 26])

/-- rfc3279.py:35 -/
def id_dsa : Py.Obj :=
  (Rfc3279._OID [.num 1, .num 2, .num 840, .num 10040, .num 4, .num 1])

/-- rfc3279.py:38-39 `class DSAPublicKey(univ.Integer)` -/
def DSAPublicKey : Py.Obj :=
  Py.univ.Integer

/-- rfc3279.py:42-47 `class Dss_Parms(univ.Sequence)` -/
def Dss_Parms : Py.Obj :=
  Py.univ.Sequence.setComponentType (Py.NamedTypes [
    Py.NamedType "p" Py.univ.Integer.call,
    Py.NamedType "q" Py.univ.Integer.call,
    Py.NamedType "g" Py.univ.Integer.call])

/-- rfc3279.py:50 -/
def id_dsa_with_sha1 : Py.Obj :=
  (Rfc3279._OID [.num 1, .num 2, .num 840, .num 10040, .num 4, .num 3])

/-- rfc3279.py:53-57 `class Dss_Sig_Value(univ.Sequence)` -/
def Dss_Sig_Value : Py.Obj :=
  Py.univ.Sequence.setComponentType (Py.NamedTypes [
    Py.NamedType "r" Py.univ.Integer.call,
    Py.NamedType "s" Py.univ.Integer.call])

/-- rfc3279.py:60 -/
def pkcs_1 : Py.Obj :=
  (Rfc3279._OID [.num 1, .num 2, .num 840, .num 113549, .num 1, .num 1])

/-- rfc3279.py:61 -/
def rsaEncryption : Py.Obj :=
  (Rfc3279._OID [.oid Rfc3279.pkcs_1, .num 1])

/-- rfc3279.py:62 -/
def md2WithRSAEncryption : Py.Obj :=
  (Rfc3279._OID [.oid Rfc3279.pkcs_1, .num 2])

/-- rfc3279.py:63 -/
def md5WithRSAEncryption : Py.Obj :=
  (Rfc3279._OID [.oid Rfc3279.pkcs_1, .num 4])

/-- rfc3279.py:64 -/
def sha1WithRSAEncryption : Py.Obj :=
  (Rfc3279._OID [.oid Rfc3279.pkcs_1, .num 5])

/-- rfc3279.py:67-71 `class RSAPublicKey(univ.Sequence)` -/
def RSAPublicKey : Py.Obj :=
  Py.univ.Sequence.setComponentType (Py.NamedTypes [
    Py.NamedType "modulus" Py.univ.Integer.call,
    Py.NamedType "publicExponent" Py.univ.Integer.call])

/-- rfc3279.py:74 -/
def dhpublicnumber : Py.Obj :=
  (Rfc3279._OID [.num 1, .num 2, .num 840, .num 10046, .num 2, .num 1])

/-- rfc3279.py:77-78 `class DHPublicKey(univ.Integer)` -/
def DHPublicKey : Py.Obj :=
  Py.univ.Integer

/-- rfc3279.py:81-85 `class ValidationParms(univ.Sequence)` -/
def ValidationParms : Py.Obj :=
  Py.univ.Sequence.setComponentType (Py.NamedTypes [
    Py.NamedType "seed" Py.univ.BitString.call,
    Py.NamedType "pgenCounter" Py.univ.Integer.call])

/-- rfc3279.py:88-95 `class DomainParameters(univ.Sequence)` -/
def DomainParameters : Py.Obj :=
  Py.univ.Sequence.setComponentType (Py.NamedTypes [
    Py.NamedType "p" Py.univ.Integer.call,
    Py.NamedType "g" Py.univ.Integer.call,
    Py.NamedType "q" Py.univ.Integer.call,
    Py.OptionalNamedType "j" Py.univ.Integer.call,
    Py.OptionalNamedType "validationParms" Rfc3279.ValidationParms.call])

/-- rfc3279.py:98 -/
def id_keyExchangeAlgorithm : Py.Obj :=
  (Rfc3279._OID [.num 2, .num 16, .num 840, .num 1, .num 101, .num 2, .num 1, .num 1, .num 22])

/-- rfc3279.py:101-102 `class KEA_Parms_Id(univ.OctetString)` -/
def KEA_Parms_Id : Py.Obj :=
  Py.univ.OctetString

/-- rfc3279.py:105 -/
def ansi_X9_62 : Py.Obj :=
  (Rfc3279._OID [.num 1, .num 2, .num 840, .num 10045])

/-- rfc3279.py:108-112 `class FieldID(univ.Sequence)` -/
def FieldID : Py.Obj :=
  Py.univ.Sequence.setComponentType (Py.NamedTypes [
    Py.NamedType "fieldType" Py.univ.ObjectIdentifier.call,
    Py.NamedType "parameters" Py.univ.Any.call])

/-- rfc3279.py:115 -/
def id_ecSigType : Py.Obj :=
  (Rfc3279._OID [.oid Rfc3279.ansi_X9_62, .num 4])

/-- rfc3279.py:116 -/
def ecdsa_with_SHA1 : Py.Obj :=
  (Rfc3279._OID [.oid Rfc3279.id_ecSigType, .num 1])

/-- rfc3279.py:119-123 `class ECDSA_Sig_Value(univ.Sequence)` -/
def ECDSA_Sig_Value : Py.Obj :=
  Py.univ.Sequence.setComponentType (Py.NamedTypes [
    Py.NamedType "r" Py.univ.Integer.call,
    Py.NamedType "s" Py.univ.Integer.call])

/-- rfc3279.py:126 -/
def id_fieldType : Py.Obj :=
  (Rfc3279._OID [.oid Rfc3279.ansi_X9_62, .num 1])

/-- rfc3279.py:127 -/
def prime_field : Py.Obj :=
  (Rfc3279._OID [.oid Rfc3279.id_fieldType, .num 1])

/-- rfc3279.py:130-131 `class Prime_p(univ.Integer)` -/
def Prime_p : Py.Obj :=
  Py.univ.Integer

/-- rfc3279.py:134 -/
def characteristic_two_field : Py.Obj :=
  (Rfc3279._OID [.oid Rfc3279.id_fieldType, .num 2])

/-- rfc3279.py:137-142 `class Characteristic_two(univ.Sequence)` -/
def Characteristic_two : Py.Obj :=
  Py.univ.Sequence.setComponentType (Py.NamedTypes [
    Py.NamedType "m" Py.univ.Integer.call,
    Py.NamedType "basis" Py.univ.ObjectIdentifier.call,
    Py.NamedType "parameters" Py.univ.Any.call])

/-- rfc3279.py:145 -/
def id_characteristic_two_basis : Py.Obj :=
  (Rfc3279._OID [.oid Rfc3279.characteristic_two_field, .num 3])

/-- rfc3279.py:146 -/
def gnBasis : Py.Obj :=
  (Rfc3279._OID [.oid Rfc3279.id_characteristic_two_basis, .num 1])

/-- rfc3279.py:147 -/
def tpBasis : Py.Obj :=
  (Rfc3279._OID [.oid Rfc3279.id_characteristic_two_basis, .num 2])

/-- rfc3279.py:150-151 `class Trinomial(univ.Integer)` -/
def Trinomial : Py.Obj :=
  Py.univ.Integer

/-- rfc3279.py:154 -/
def ppBasis : Py.Obj :=
  (Rfc3279._OID [.oid Rfc3279.id_characteristic_two_basis, .num 3])

/-- rfc3279.py:157-162 `class Pentanomial(univ.Sequence)` -/
def Pentanomial : Py.Obj :=
  Py.univ.Sequence.setComponentType (Py.NamedTypes [
    Py.NamedType "k1" Py.univ.Integer.call,
    Py.NamedType "k2" Py.univ.Integer.call,
    Py.NamedType "k3" Py.univ.Integer.call])

/-- rfc3279.py:165-166 `class FieldElement(univ.OctetString)` -/
def FieldElement : Py.Obj :=
  Py.univ.OctetString

/-- rfc3279.py:169-170 `class ECPoint(univ.OctetString)` -/
def ECPoint : Py.Obj :=
  Py.univ.OctetString

/-- rfc3279.py:173-178 `class Curve(univ.Sequence)` -/
def Curve : Py.Obj :=
  Py.univ.Sequence.setComponentType (Py.NamedTypes [
    Py.NamedType "a" Rfc3279.FieldElement.call,
    Py.NamedType "b" Rfc3279.FieldElement.call,
    Py.OptionalNamedType "seed" Py.univ.BitString.call])

/-- rfc3279.py:181-184 `class ECPVer(univ.Integer)` -/
def ECPVer : Py.Obj :=
  Py.univ.Integer.setNamedValues (Py.NamedValues [("ecpVer1", 1)])

/-- rfc3279.py:187-195 `class ECParameters(univ.Sequence)` -/
def ECParameters : Py.Obj :=
  Py.univ.Sequence.setComponentType (Py.NamedTypes [
    Py.NamedType "version" Rfc3279.ECPVer.call,
    Py.NamedType "fieldID" Rfc3279.FieldID.call,
    Py.NamedType "curve" Rfc3279.Curve.call,
    Py.NamedType "base" Rfc3279.ECPoint.call,
    Py.NamedType "order" Py.univ.Integer.call,
    Py.OptionalNamedType "cofactor" Py.univ.Integer.call])

/-- rfc3279.py:198-203 `class EcpkParameters(univ.Choice)` -/
def EcpkParameters : Py.Obj :=
  Py.univ.Choice.setComponentType (Py.NamedTypes [
    Py.NamedType "ecParameters" Rfc3279.ECParameters.call,
    Py.NamedType "namedCurve" Py.univ.ObjectIdentifier.call,
    Py.NamedType "implicitlyCA" Py.univ.Null.call])

/-- rfc3279.py:206 -/
def id_publicKeyType : Py.Obj :=
  (Rfc3279._OID [.oid Rfc3279.ansi_X9_62, .num 2])

/-- rfc3279.py:207 -/
def id_ecPublicKey : Py.Obj :=
  (Rfc3279._OID [.oid Rfc3279.id_publicKeyType, .num 1])

/-- rfc3279.py:209 -/
def ellipticCurve : Py.Obj :=
  (Rfc3279._OID [.oid Rfc3279.ansi_X9_62, .num 3])

/-- rfc3279.py:211 -/
def c_TwoCurve : Py.Obj :=
  (Rfc3279._OID [.oid Rfc3279.ellipticCurve, .num 0])

/-- rfc3279.py:212 -/
def c2pnb163v1 : Py.Obj :=
  (Rfc3279._OID [.oid Rfc3279.c_TwoCurve, .num 1])

/-- rfc3279.py:213 -/
def c2pnb163v2 : Py.Obj :=
  (Rfc3279._OID [.oid Rfc3279.c_TwoCurve, .num 2])

/-- rfc3279.py:214 -/
def c2pnb163v3 : Py.Obj :=
  (Rfc3279._OID [.oid Rfc3279.c_TwoCurve, .num 3])

/-- rfc3279.py:215 -/
def c2pnb176w1 : Py.Obj :=
  (Rfc3279._OID [.oid Rfc3279.c_TwoCurve, .num 4])

/-- rfc3279.py:216 -/
def c2tnb191v1 : Py.Obj :=
  (Rfc3279._OID [.oid Rfc3279.c_TwoCurve, .num 5])

/-- rfc3279.py:217 -/
def c2tnb191v2 : Py.Obj :=
  (Rfc3279._OID [.oid Rfc3279.c_TwoCurve, .num 6])

/-- rfc3279.py:218 -/
def c2tnb191v3 : Py.Obj :=
  (Rfc3279._OID [.oid Rfc3279.c_TwoCurve, .num 7])

/-- rfc3279.py:219 -/
def c2onb191v4 : Py.Obj :=
  (Rfc3279._OID [.oid Rfc3279.c_TwoCurve, .num 8])

/-- rfc3279.py:220 -/
def c2onb191v5 : Py.Obj :=
  (Rfc3279._OID [.oid Rfc3279.c_TwoCurve, .num 9])

/-- rfc3279.py:221 -/
def c2pnb208w1 : Py.Obj :=
  (Rfc3279._OID [.oid Rfc3279.c_TwoCurve, .num 10])

/-- rfc3279.py:222 -/
def c2tnb239v1 : Py.Obj :=
  (Rfc3279._OID [.oid Rfc3279.c_TwoCurve, .num 11])

/-- rfc3279.py:223 -/
def c2tnb239v2 : Py.Obj :=
  (Rfc3279._OID [.oid Rfc3279.c_TwoCurve, .num 12])

/-- rfc3279.py:224 -/
def c2tnb239v3 : Py.Obj :=
  (Rfc3279._OID [.oid Rfc3279.c_TwoCurve, .num 13])

/-- rfc3279.py:225 -/
def c2onb239v4 : Py.Obj :=
  (Rfc3279._OID [.oid Rfc3279.c_TwoCurve, .num 14])

/-- rfc3279.py:226 -/
def c2onb239v5 : Py.Obj :=
  (Rfc3279._OID [.oid Rfc3279.c_TwoCurve, .num 15])

/-- rfc3279.py:227 -/
def c2pnb272w1 : Py.Obj :=
  (Rfc3279._OID [.oid Rfc3279.c_TwoCurve, .num 16])

/-- rfc3279.py:228 -/
def c2pnb304w1 : Py.Obj :=
  (Rfc3279._OID [.oid Rfc3279.c_TwoCurve, .num 17])

/-- rfc3279.py:229 -/
def c2tnb359v1 : Py.Obj :=
  (Rfc3279._OID [.oid Rfc3279.c_TwoCurve, .num 18])

/-- rfc3279.py:230 -/
def c2pnb368w1 : Py.Obj :=
  (Rfc3279._OID [.oid Rfc3279.c_TwoCurve, .num 19])

/-- rfc3279.py:231 -/
def c2tnb431r1 : Py.Obj :=
  (Rfc3279._OID [.oid Rfc3279.c_TwoCurve, .num 20])

/-- rfc3279.py:233 -/
def primeCurve : Py.Obj :=
  (Rfc3279._OID [.oid Rfc3279.ellipticCurve, .num 1])

/-- rfc3279.py:234 -/
def prime192v1 : Py.Obj :=
  (Rfc3279._OID [.oid Rfc3279.primeCurve, .num 1])

/-- rfc3279.py:235 -/
def prime192v2 : Py.Obj :=
  (Rfc3279._OID [.oid Rfc3279.primeCurve, .num 2])

/-- rfc3279.py:236 -/
def prime192v3 : Py.Obj :=
  (Rfc3279._OID [.oid Rfc3279.primeCurve, .num 3])

/-- rfc3279.py:237 -/
def prime239v1 : Py.Obj :=
  (Rfc3279._OID [.oid Rfc3279.primeCurve, .num 4])

/-- rfc3279.py:238 -/
def prime239v2 : Py.Obj :=
  (Rfc3279._OID [.oid Rfc3279.primeCurve, .num 5])

/-- rfc3279.py:239 -/
def prime239v3 : Py.Obj :=
  (Rfc3279._OID [.oid Rfc3279.primeCurve, .num 6])

/-- rfc3279.py:240 -/
def prime256v1 : Py.Obj :=
  (Rfc3279._OID [.oid Rfc3279.primeCurve, .num 7])

/-- rfc3279.py:246-258 -/
def _algorithmIdentifierMapUpdate : Py.Entries :=
  [(Rfc3279.md2.value, (Py.univ.Null.call.callStr "").ty),
    (Rfc3279.md5.value, (Py.univ.Null.call.callStr "").ty),
    (Rfc3279.id_sha1.value, (Py.univ.Null.call.callStr "").ty),
    (Rfc3279.id_dsa.value, Rfc3279.Dss_Parms.call.ty),
    (Rfc3279.rsaEncryption.value, (Py.univ.Null.call.callStr "").ty),
    (Rfc3279.md2WithRSAEncryption.value, (Py.univ.Null.call.callStr "").ty),
    (Rfc3279.md5WithRSAEncryption.value, (Py.univ.Null.call.callStr "").ty),
    (Rfc3279.sha1WithRSAEncryption.value, (Py.univ.Null.call.callStr "").ty),
    (Rfc3279.dhpublicnumber.value, Rfc3279.DomainParameters.call.ty),
    (Rfc3279.id_keyExchangeAlgorithm.value, Rfc3279.KEA_Parms_Id.call.ty),
    (Rfc3279.id_ecPublicKey.value, Rfc3279.EcpkParameters.call.ty)]

/-- Modules of this package imported by rfc3279.py, in textual order. -/
def imports : List Py.Ident :=
  [(Py.mod 15 "rfc5280")]

/-- Dictionary operations executed when rfc3279.py is imported, in program order. -/
def effects : List Py.Effect :=
  [.create (Py.map 40 "rfc3279._algorithmIdentifierMapUpdate") Rfc3279._algorithmIdentifierMapUpdate /- rfc3279.py:246-258 -/,
   .update (Py.map 3 "rfc5280.algorithmIdentifierMap") Rfc3279._algorithmIdentifierMapUpdate /- rfc3279.py:260 -/]

/-- ASN.1 types rfc3279.py binds at module level (final version of each name), plus nested classes. -/
def classes : List (String × Py.Obj) :=
  [("rfc3279.DSAPublicKey", Rfc3279.DSAPublicKey),
   ("rfc3279.Dss_Parms", Rfc3279.Dss_Parms),
   ("rfc3279.Dss_Sig_Value", Rfc3279.Dss_Sig_Value),
   ("rfc3279.RSAPublicKey", Rfc3279.RSAPublicKey),
   ("rfc3279.DHPublicKey", Rfc3279.DHPublicKey),
   ("rfc3279.ValidationParms", Rfc3279.ValidationParms),
   ("rfc3279.DomainParameters", Rfc3279.DomainParameters),
   ("rfc3279.KEA_Parms_Id", Rfc3279.KEA_Parms_Id),
   ("rfc3279.FieldID", Rfc3279.FieldID),
   ("rfc3279.ECDSA_Sig_Value", Rfc3279.ECDSA_Sig_Value),
   ("rfc3279.Prime_p", Rfc3279.Prime_p),
   ("rfc3279.Characteristic_two", Rfc3279.Characteristic_two),
   ("rfc3279.Trinomial", Rfc3279.Trinomial),
   ("rfc3279.Pentanomial", Rfc3279.Pentanomial),
   ("rfc3279.FieldElement", Rfc3279.FieldElement),
   ("rfc3279.ECPoint", Rfc3279.ECPoint),
   ("rfc3279.Curve", Rfc3279.Curve),
   ("rfc3279.ECPVer", Rfc3279.ECPVer),
   ("rfc3279.ECParameters", Rfc3279.ECParameters),
   ("rfc3279.EcpkParameters", Rfc3279.EcpkParameters)]

/-- pyasn1 instances rfc3279.py binds at module level. -/
def objects : List (String × Py.Obj) :=
  [("rfc3279.md2", Rfc3279.md2),
   ("rfc3279.md5", Rfc3279.md5),
   ("rfc3279.id_sha1", Rfc3279.id_sha1),
   ("rfc3279.id_dsa", Rfc3279.id_dsa),
   ("rfc3279.id_dsa_with_sha1", Rfc3279.id_dsa_with_sha1),
   ("rfc3279.pkcs_1", Rfc3279.pkcs_1),
   ("rfc3279.rsaEncryption", Rfc3279.rsaEncryption),
   ("rfc3279.md2WithRSAEncryption", Rfc3279.md2WithRSAEncryption),
   ("rfc3279.md5WithRSAEncryption", Rfc3279.md5WithRSAEncryption),
   ("rfc3279.sha1WithRSAEncryption", Rfc3279.sha1WithRSAEncryption),
   ("rfc3279.dhpublicnumber", Rfc3279.dhpublicnumber),
   ("rfc3279.id_keyExchangeAlgorithm", Rfc3279.id_keyExchangeAlgorithm),
   ("rfc3279.ansi_X9_62", Rfc3279.ansi_X9_62),
   ("rfc3279.id_ecSigType", Rfc3279.id_ecSigType),
   ("rfc3279.ecdsa_with_SHA1", Rfc3279.ecdsa_with_SHA1),
   ("rfc3279.id_fieldType", Rfc3279.id_fieldType),
   ("rfc3279.prime_field", Rfc3279.prime_field),
   ("rfc3279.characteristic_two_field", Rfc3279.characteristic_two_field),
   ("rfc3279.id_characteristic_two_basis", Rfc3279.id_characteristic_two_basis),
   ("rfc3279.gnBasis", Rfc3279.gnBasis),
   ("rfc3279.tpBasis", Rfc3279.tpBasis),
   ("rfc3279.ppBasis", Rfc3279.ppBasis),
   ("rfc3279.id_publicKeyType", Rfc3279.id_publicKeyType),
   ("rfc3279.id_ecPublicKey", Rfc3279.id_ecPublicKey),
   ("rfc3279.ellipticCurve", Rfc3279.ellipticCurve),
   ("rfc3279.c_TwoCurve", Rfc3279.c_TwoCurve),
   ("rfc3279.c2pnb163v1", Rfc3279.c2pnb163v1),
   ("rfc3279.c2pnb163v2", Rfc3279.c2pnb163v2),
   ("rfc3279.c2pnb163v3", Rfc3279.c2pnb163v3),
   ("rfc3279.c2pnb176w1", Rfc3279.c2pnb176w1),
   ("rfc3279.c2tnb191v1", Rfc3279.c2tnb191v1),
   ("rfc3279.c2tnb191v2", Rfc3279.c2tnb191v2),
   ("rfc3279.c2tnb191v3", Rfc3279.c2tnb191v3),
   ("rfc3279.c2onb191v4", Rfc3279.c2onb191v4),
   ("rfc3279.c2onb191v5", Rfc3279.c2onb191v5),
   ("rfc3279.c2pnb208w1", Rfc3279.c2pnb208w1),
   ("rfc3279.c2tnb239v1", Rfc3279.c2tnb239v1),
   ("rfc3279.c2tnb239v2", Rfc3279.c2tnb239v2),
   ("rfc3279.c2tnb239v3", Rfc3279.c2tnb239v3),
   ("rfc3279.c2onb239v4", Rfc3279.c2onb239v4),
   ("rfc3279.c2onb239v5", Rfc3279.c2onb239v5),
   ("rfc3279.c2pnb272w1", Rfc3279.c2pnb272w1),
   ("rfc3279.c2pnb304w1", Rfc3279.c2pnb304w1),
   ("rfc3279.c2tnb359v1", Rfc3279.c2tnb359v1),
   ("rfc3279.c2pnb368w1", Rfc3279.c2pnb368w1),
   ("rfc3279.c2tnb431r1", Rfc3279.c2tnb431r1),
   ("rfc3279.primeCurve", Rfc3279.primeCurve),
   ("rfc3279.prime192v1", Rfc3279.prime192v1),
   ("rfc3279.prime192v2", Rfc3279.prime192v2),
   ("rfc3279.prime192v3", Rfc3279.prime192v3),
   ("rfc3279.prime239v1", Rfc3279.prime239v1),
   ("rfc3279.prime239v2", Rfc3279.prime239v2),
   ("rfc3279.prime239v3", Rfc3279.prime239v3),
   ("rfc3279.prime256v1", Rfc3279.prime256v1)]

/-- pyasn1 instances rfc3279.py fills in by item assignment. -/
def protos : List (String × Py.Proto) :=
  []

/-- Every place of rfc3279.py that instantiates a class of the package: where, the class as it is
at that point, and the class as it is when the import has finished. -/
def snapshots : List Py.Snapshot :=
  [⟨"rfc3279.py:94", Rfc3279.ValidationParms, Rfc3279.ValidationParms⟩,
   ⟨"rfc3279.py:175", Rfc3279.FieldElement, Rfc3279.FieldElement⟩,
   ⟨"rfc3279.py:176", Rfc3279.FieldElement, Rfc3279.FieldElement⟩,
   ⟨"rfc3279.py:189", Rfc3279.ECPVer, Rfc3279.ECPVer⟩,
   ⟨"rfc3279.py:190", Rfc3279.FieldID, Rfc3279.FieldID⟩,
   ⟨"rfc3279.py:191", Rfc3279.Curve, Rfc3279.Curve⟩,
   ⟨"rfc3279.py:192", Rfc3279.ECPoint, Rfc3279.ECPoint⟩,
   ⟨"rfc3279.py:200", Rfc3279.ECParameters, Rfc3279.ECParameters⟩,
   ⟨"rfc3279.py:250", Rfc3279.Dss_Parms, Rfc3279.Dss_Parms⟩,
   ⟨"rfc3279.py:255", Rfc3279.DomainParameters, Rfc3279.DomainParameters⟩,
   ⟨"rfc3279.py:256", Rfc3279.KEA_Parms_Id, Rfc3279.KEA_Parms_Id⟩,
   ⟨"rfc3279.py:257", Rfc3279.EcpkParameters, Rfc3279.EcpkParameters⟩]

/-- Functions rfc3279.py defines. -/
def builders : List (String × (List Py.OidArg → Py.Obj)) :=
  [("rfc3279._OID", Rfc3279._OID)]

def asModule : Py.Module :=
  { id := (Py.mod 33 "rfc3279"), imports := imports, effects := effects, classes := classes, objects := objects, protos := protos, snapshots := snapshots, builders := builders }

end Rfc3279
end Verif
