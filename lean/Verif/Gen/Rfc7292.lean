import Verif.Py.Obj
import Verif.Gen.Rfc2315
import Verif.Gen.Rfc5652
import Verif.Gen.Rfc5280
import Verif.Gen.Rfc5958

/-! Transcription of /repo/pyasn1_modules/rfc7292.py (generated by tools/gen.py). -/

namespace Verif
namespace Rfc7292

/-- rfc7292.py:28-36 `def _OID(*components)` -/
def _OID (components : List Py.OidArg) : Py.Obj :=
  match Py.oidLoop [] components with
  | some output => Py.univ.ObjectIdentifier.call.callArcs output
  | none => .fail "OID without value"

/-- rfc7292.py:41 -/
def pkcs12BagTypeMap : Py.Entries :=
  []

/-- rfc7292.py:43 -/
def pkcs12CertBagMap : Py.Entries :=
  []

/-- rfc7292.py:45 -/
def pkcs12CRLBagMap : Py.Entries :=
  []

/-- rfc7292.py:47 -/
def pkcs12SecretBagMap : Py.Entries :=
  []

/-- rfc7292.py:52 alias of `rfc2315.DigestInfo` -/
def DigestInfo : Py.Obj :=
  Rfc2315.DigestInfo

/-- rfc7292.py:55 alias of `rfc5652.ContentInfo` -/
def ContentInfo : Py.Obj :=
  Rfc5652.ContentInfo

/-- rfc7292.py:57 alias of `rfc5652.Attribute` -/
def PKCS12Attribute : Py.Obj :=
  Rfc5652.Attribute

/-- rfc7292.py:60 alias of `rfc5958.EncryptedPrivateKeyInfo` -/
def EncryptedPrivateKeyInfo : Py.Obj :=
  Rfc5958.EncryptedPrivateKeyInfo

/-- rfc7292.py:62 alias of `rfc5958.PrivateKeyInfo` -/
def PrivateKeyInfo : Py.Obj :=
  Rfc5958.PrivateKeyInfo

/-- rfc7292.py:68-69 `class AttributeType(univ.ObjectIdentifier)` -/
def AttributeType : Py.Obj :=
  Py.univ.ObjectIdentifier

/-- rfc7292.py:72-73 `class AttributeValue(univ.Any)` -/
def AttributeValue : Py.Obj :=
  Py.univ.Any

/-- rfc7292.py:76-77 `class AttributeValues(univ.SetOf)` -/
def AttributeValues__0 : Py.Obj :=
  Py.univ.SetOf

/-- rfc7292.py:79 `AttributeValues.componentType = ...` -/
def AttributeValues : Py.Obj :=
  Rfc7292.AttributeValues__0.setComponentTypeOf Rfc7292.AttributeValue.call

/-- rfc7292.py:82-83 `class CMSSingleAttribute(univ.Sequence)` -/
def CMSSingleAttribute__0 : Py.Obj :=
  Py.univ.Sequence

/-- rfc7292.py:85-91 `CMSSingleAttribute.componentType = ...` -/
def CMSSingleAttribute : Py.Obj :=
  Rfc7292.CMSSingleAttribute__0.setComponentType (Py.NamedTypes [
    Py.NamedType "attrType" Rfc7292.AttributeType.call,
    Py.NamedType "attrValues" (Rfc7292.AttributeValues.call.addSizeSpec (Py.ValueSizeConstraint (.fin 1) (.fin 1))) (openType := some (Py.OpenType "attrType" (Py.map 8 "rfc5652.cmsAttributesMap")))])

/-- rfc7292.py:96 -/
def rsadsi : Py.Obj :=
  (Rfc7292._OID [.num 1, .num 2, .num 840, .num 113549])

/-- rfc7292.py:98 -/
def pkcs : Py.Obj :=
  (Rfc7292._OID [.oid Rfc7292.rsadsi, .num 1])

/-- rfc7292.py:100 -/
def pkcs_9 : Py.Obj :=
  (Rfc7292._OID [.oid Rfc7292.pkcs, .num 9])

/-- rfc7292.py:102 -/
def certTypes : Py.Obj :=
  (Rfc7292._OID [.oid Rfc7292.pkcs_9, .num 22])

/-- rfc7292.py:104 -/
def crlTypes : Py.Obj :=
  (Rfc7292._OID [.oid Rfc7292.pkcs_9, .num 23])

/-- rfc7292.py:106 -/
def pkcs_12 : Py.Obj :=
  (Rfc7292._OID [.oid Rfc7292.pkcs, .num 12])

/-- rfc7292.py:111 -/
def pkcs_12PbeIds : Py.Obj :=
  (Rfc7292._OID [.oid Rfc7292.pkcs_12, .num 1])

/-- rfc7292.py:113 -/
def pbeWithSHAAnd128BitRC4 : Py.Obj :=
  (Rfc7292._OID [.oid Rfc7292.pkcs_12PbeIds, .num 1])

/-- rfc7292.py:115 -/
def pbeWithSHAAnd40BitRC4 : Py.Obj :=
  (Rfc7292._OID [.oid Rfc7292.pkcs_12PbeIds, .num 2])

/-- rfc7292.py:117 -/
def pbeWithSHAAnd3_KeyTripleDES_CBC : Py.Obj :=
  (Rfc7292._OID [.oid Rfc7292.pkcs_12PbeIds, .num 3])

/-- rfc7292.py:119 -/
def pbeWithSHAAnd2_KeyTripleDES_CBC : Py.Obj :=
  (Rfc7292._OID [.oid Rfc7292.pkcs_12PbeIds, .num 4])

/-- rfc7292.py:121 -/
def pbeWithSHAAnd128BitRC2_CBC : Py.Obj :=
  (Rfc7292._OID [.oid Rfc7292.pkcs_12PbeIds, .num 5])

/-- rfc7292.py:123 -/
def pbeWithSHAAnd40BitRC2_CBC : Py.Obj :=
  (Rfc7292._OID [.oid Rfc7292.pkcs_12PbeIds, .num 6])

/-- rfc7292.py:126-127 `class Pkcs_12PbeParams(univ.Sequence)` -/
def Pkcs_12PbeParams__0 : Py.Obj :=
  Py.univ.Sequence

/-- rfc7292.py:129-132 `Pkcs_12PbeParams.componentType = ...` -/
def Pkcs_12PbeParams : Py.Obj :=
  Rfc7292.Pkcs_12PbeParams__0.setComponentType (Py.NamedTypes [
    Py.NamedType "salt" Py.univ.OctetString.call,
    Py.NamedType "iterations" Py.univ.Integer.call])

/-- rfc7292.py:137 -/
def bagtypes : Py.Obj :=
  (Rfc7292._OID [.oid Rfc7292.pkcs_12, .num 10, .num 1])

/-- rfc7292.py:139-140 `class BAG_TYPE(univ.Sequence)` -/
def BAG_TYPE__0 : Py.Obj :=
  Py.univ.Sequence

/-- rfc7292.py:142-147 `BAG_TYPE.componentType = ...` -/
def BAG_TYPE : Py.Obj :=
  Rfc7292.BAG_TYPE__0.setComponentType (Py.NamedTypes [
    Py.NamedType "id" Py.univ.ObjectIdentifier.call,
    Py.NamedType "unnamed1" Py.univ.Any.call (openType := some (Py.OpenType "attrType" (Py.map 15 "rfc7292.pkcs12BagTypeMap")))])

/-- rfc7292.py:150 -/
def id_keyBag : Py.Obj :=
  (Rfc7292._OID [.oid Rfc7292.bagtypes, .num 1])

/-- rfc7292.py:152-153 `class KeyBag(PrivateKeyInfo)` -/
def KeyBag : Py.Obj :=
  Rfc7292.PrivateKeyInfo

/-- rfc7292.py:156 -/
def id_pkcs8ShroudedKeyBag : Py.Obj :=
  (Rfc7292._OID [.oid Rfc7292.bagtypes, .num 2])

/-- rfc7292.py:158-159 `class PKCS8ShroudedKeyBag(EncryptedPrivateKeyInfo)` -/
def PKCS8ShroudedKeyBag : Py.Obj :=
  Rfc7292.EncryptedPrivateKeyInfo

/-- rfc7292.py:162 -/
def id_certBag : Py.Obj :=
  (Rfc7292._OID [.oid Rfc7292.bagtypes, .num 3])

/-- rfc7292.py:164-165 `class CertBag(univ.Sequence)` -/
def CertBag__0 : Py.Obj :=
  Py.univ.Sequence

/-- rfc7292.py:167-173 `CertBag.componentType = ...` -/
def CertBag : Py.Obj :=
  Rfc7292.CertBag__0.setComponentType (Py.NamedTypes [
    Py.NamedType "certId" Py.univ.ObjectIdentifier.call,
    Py.NamedType "certValue" (Py.univ.Any.call.explicitTag (Py.Tag .context false 0)) (openType := some (Py.OpenType "certId" (Py.map 16 "rfc7292.pkcs12CertBagMap")))])

/-- rfc7292.py:176 -/
def x509Certificate__0 : Py.Proto :=
  { obj := Rfc7292.CertBag.call }

/-- rfc7292.py:177 `x509Certificate['certId'] = ...` -/
def x509Certificate__1 : Py.Proto :=
  Rfc7292.x509Certificate__0.set "certId" (.obj (Rfc7292._OID [.oid Rfc7292.certTypes, .num 1]))

/-- rfc7292.py:178 `x509Certificate['certValue'] = ...` -/
def x509Certificate : Py.Proto :=
  Rfc7292.x509Certificate__1.set "certValue" (.obj Py.univ.OctetString.call)

/-- rfc7292.py:182 -/
def sdsiCertificate__0 : Py.Proto :=
  { obj := Rfc7292.CertBag.call }

/-- rfc7292.py:183 `sdsiCertificate['certId'] = ...` -/
def sdsiCertificate__1 : Py.Proto :=
  Rfc7292.sdsiCertificate__0.set "certId" (.obj (Rfc7292._OID [.oid Rfc7292.certTypes, .num 2]))

/-- rfc7292.py:184 `sdsiCertificate['certValue'] = ...` -/
def sdsiCertificate : Py.Proto :=
  Rfc7292.sdsiCertificate__1.set "certValue" (.obj Py.char.IA5String.call)

/-- rfc7292.py:188 -/
def id_CRLBag : Py.Obj :=
  (Rfc7292._OID [.oid Rfc7292.bagtypes, .num 4])

/-- rfc7292.py:190-191 `class CRLBag(univ.Sequence)` -/
def CRLBag__0 : Py.Obj :=
  Py.univ.Sequence

/-- rfc7292.py:193-199 `CRLBag.componentType = ...` -/
def CRLBag : Py.Obj :=
  Rfc7292.CRLBag__0.setComponentType (Py.NamedTypes [
    Py.NamedType "crlId" Py.univ.ObjectIdentifier.call,
    Py.NamedType "crlValue" (Py.univ.Any.call.explicitTag (Py.Tag .context false 0)) (openType := some (Py.OpenType "crlId" (Py.map 17 "rfc7292.pkcs12CRLBagMap")))])

/-- rfc7292.py:202 -/
def x509CRL__0 : Py.Proto :=
  { obj := Rfc7292.CRLBag.call }

/-- rfc7292.py:203 `x509CRL['crlId'] = ...` -/
def x509CRL__1 : Py.Proto :=
  Rfc7292.x509CRL__0.set "crlId" (.obj (Rfc7292._OID [.oid Rfc7292.crlTypes, .num 1]))

/-- rfc7292.py:204 `x509CRL['crlValue'] = ...` -/
def x509CRL : Py.Proto :=
  Rfc7292.x509CRL__1.set "crlValue" (.obj Py.univ.OctetString.call)

/-- rfc7292.py:208 -/
def id_secretBag : Py.Obj :=
  (Rfc7292._OID [.oid Rfc7292.bagtypes, .num 5])

/-- rfc7292.py:210-211 `class SecretBag(univ.Sequence)` -/
def SecretBag__0 : Py.Obj :=
  Py.univ.Sequence

/-- rfc7292.py:213-219 `SecretBag.componentType = ...` -/
def SecretBag : Py.Obj :=
  Rfc7292.SecretBag__0.setComponentType (Py.NamedTypes [
    Py.NamedType "secretTypeId" Py.univ.ObjectIdentifier.call,
    Py.NamedType "secretValue" (Py.univ.Any.call.explicitTag (Py.Tag .context false 0)) (openType := some (Py.OpenType "secretTypeId" (Py.map 18 "rfc7292.pkcs12SecretBagMap")))])

/-- rfc7292.py:222 -/
def id_safeContentsBag : Py.Obj :=
  (Rfc7292._OID [.oid Rfc7292.bagtypes, .num 6])

/-- rfc7292.py:224-225 `class SafeBag(univ.Sequence)` -/
def SafeBag__0 : Py.Obj :=
  Py.univ.Sequence

/-- rfc7292.py:227-236 `SafeBag.componentType = ...` -/
def SafeBag : Py.Obj :=
  Rfc7292.SafeBag__0.setComponentType (Py.NamedTypes [
    Py.NamedType "bagId" Py.univ.ObjectIdentifier.call,
    Py.NamedType "bagValue" (Py.univ.Any.call.explicitTag (Py.Tag .context false 0)) (openType := some (Py.OpenType "bagId" (Py.map 15 "rfc7292.pkcs12BagTypeMap"))),
    Py.OptionalNamedType "bagAttributes" (Py.univ.SetOf.call.setComponentTypeOf Rfc7292.PKCS12Attribute.call)])

/-- rfc7292.py:239-240 `class SafeContents(univ.SequenceOf)` -/
def SafeContents__0 : Py.Obj :=
  Py.univ.SequenceOf

/-- rfc7292.py:242 `SafeContents.componentType = ...` -/
def SafeContents : Py.Obj :=
  Rfc7292.SafeContents__0.setComponentTypeOf Rfc7292.SafeBag.call

/-- rfc7292.py:247-248 `class AuthenticatedSafe(univ.SequenceOf)` -/
def AuthenticatedSafe__0 : Py.Obj :=
  Py.univ.SequenceOf

/-- rfc7292.py:250 `AuthenticatedSafe.componentType = ...` -/
def AuthenticatedSafe : Py.Obj :=
  Rfc7292.AuthenticatedSafe__0.setComponentTypeOf Rfc7292.ContentInfo.call

/-- rfc7292.py:256-257 `class MacData(univ.Sequence)` -/
def MacData__0 : Py.Obj :=
  Py.univ.Sequence

/-- rfc7292.py:259-264 `MacData.componentType = ...` -/
def MacData : Py.Obj :=
  Rfc7292.MacData__0.setComponentType (Py.NamedTypes [
    Py.NamedType "mac" Rfc7292.DigestInfo.call,
    Py.NamedType "macSalt" Py.univ.OctetString.call,
    Py.DefaultedNamedType "iterations" (Py.univ.Integer.call.callInt 1)])

/-- rfc7292.py:267-268 `class PFX(univ.Sequence)` -/
def PFX__0 : Py.Obj :=
  Py.univ.Sequence

/-- rfc7292.py:270-276 `PFX.componentType = ...` -/
def PFX : Py.Obj :=
  Rfc7292.PFX__0.setComponentType (Py.NamedTypes [
    Py.NamedType "version" (Py.univ.Integer.call.setNamedValues (Py.NamedValues [("v3", 3)])),
    Py.NamedType "authSafe" Rfc7292.ContentInfo.call,
    Py.OptionalNamedType "macData" Rfc7292.MacData.call])

/-- rfc7292.py:281 -/
def pkcs_9_at_localKeyId : Py.Obj :=
  (Rfc7292._OID [.oid Rfc7292.pkcs_9, .num 21])

/-- rfc7292.py:283 -/
def localKeyId__0 : Py.Proto :=
  { obj := Rfc7292.CMSSingleAttribute.call }

/-- rfc7292.py:284 `localKeyId['attrType'] = ...` -/
def localKeyId__1 : Py.Proto :=
  Rfc7292.localKeyId__0.set "attrType" (.obj Rfc7292.pkcs_9_at_localKeyId)

/-- rfc7292.py:285 `localKeyId['attrValues'][0] = ...` -/
def localKeyId : Py.Proto :=
  Rfc7292.localKeyId__1.set "attrValues" (.elem0 Py.univ.OctetString.call)

/-- rfc7292.py:290 -/
def pkcs_9_ub_pkcs9String : Py.Obj :=
  (Py.univ.Integer.call.callInt 255)

/-- rfc7292.py:292 -/
def pkcs_9_ub_friendlyName : Py.Obj :=
  (Py.univ.Integer.call.callObj Rfc7292.pkcs_9_ub_pkcs9String)

/-- rfc7292.py:294 -/
def pkcs_9_at_friendlyName : Py.Obj :=
  (Rfc7292._OID [.oid Rfc7292.pkcs_9, .num 20])

/-- rfc7292.py:296-297 `class FriendlyName(char.BMPString)` -/
def FriendlyName__0 : Py.Obj :=
  Py.char.BMPString

/-- rfc7292.py:299 `FriendlyName.subtypeSpec = ...` -/
def FriendlyName : Py.Obj :=
  Rfc7292.FriendlyName__0.setSubtypeSpec (Py.ValueSizeConstraint (.fin 1) Rfc7292.pkcs_9_ub_friendlyName.bound)

/-- rfc7292.py:302 -/
def friendlyName__0 : Py.Proto :=
  { obj := Rfc7292.CMSSingleAttribute.call }

/-- rfc7292.py:303 `friendlyName['attrType'] = ...` -/
def friendlyName__1 : Py.Proto :=
  Rfc7292.friendlyName__0.set "attrType" (.obj Rfc7292.pkcs_9_at_friendlyName)

/-- rfc7292.py:304 `friendlyName['attrValues'][0] = ...` -/
def friendlyName : Py.Proto :=
  Rfc7292.friendlyName__1.set "attrValues" (.elem0 Rfc7292.FriendlyName.call)

/-- rfc7292.py:309-316 -/
def _pkcs12BagTypeMap : Py.Entries :=
  [(Rfc7292.id_keyBag.value, Rfc7292.KeyBag.call.ty),
    (Rfc7292.id_pkcs8ShroudedKeyBag.value, Rfc7292.PKCS8ShroudedKeyBag.call.ty),
    (Rfc7292.id_certBag.value, Rfc7292.CertBag.call.ty),
    (Rfc7292.id_CRLBag.value, Rfc7292.CRLBag.call.ty),
    (Rfc7292.id_secretBag.value, Rfc7292.SecretBag.call.ty),
    (Rfc7292.id_safeContentsBag.value, Rfc7292.SafeBag.call.ty)]

/-- rfc7292.py:321-324 -/
def _pkcs12CertBagMap : Py.Entries :=
  [((Rfc7292._OID [.oid Rfc7292.certTypes, .num 1]).value, Py.univ.OctetString.call.ty),
    ((Rfc7292._OID [.oid Rfc7292.certTypes, .num 2]).value, Py.char.IA5String.call.ty)]

/-- rfc7292.py:329-331 -/
def _pkcs12CRLBagMap : Py.Entries :=
  [((Rfc7292._OID [.oid Rfc7292.crlTypes, .num 1]).value, Py.univ.OctetString.call.ty)]

/-- rfc7292.py:338-345 -/
def _algorithmIdentifierMapUpdate : Py.Entries :=
  [(Rfc7292.pbeWithSHAAnd128BitRC4.value, Rfc7292.Pkcs_12PbeParams.call.ty),
    (Rfc7292.pbeWithSHAAnd40BitRC4.value, Rfc7292.Pkcs_12PbeParams.call.ty),
    (Rfc7292.pbeWithSHAAnd3_KeyTripleDES_CBC.value, Rfc7292.Pkcs_12PbeParams.call.ty),
    (Rfc7292.pbeWithSHAAnd2_KeyTripleDES_CBC.value, Rfc7292.Pkcs_12PbeParams.call.ty),
    (Rfc7292.pbeWithSHAAnd128BitRC2_CBC.value, Rfc7292.Pkcs_12PbeParams.call.ty),
    (Rfc7292.pbeWithSHAAnd40BitRC2_CBC.value, Rfc7292.Pkcs_12PbeParams.call.ty)]

/-- rfc7292.py:352-355 -/
def _cmsAttributesMapUpdate : Py.Entries :=
  [(Rfc7292.pkcs_9_at_friendlyName.value, Rfc7292.FriendlyName.call.ty),
    (Rfc7292.pkcs_9_at_localKeyId.value, Py.univ.OctetString.call.ty)]

/-- Modules of this package imported by rfc7292.py, in textual order. -/
def imports : List Py.Ident :=
  [(Py.mod 8 "rfc2315"), (Py.mod 16 "rfc5652"), (Py.mod 15 "rfc5280"), (Py.mod 22 "rfc5958")]

/-- Dictionary operations executed when rfc7292.py is imported, in program order. -/
def effects : List Py.Effect :=
  [.create (Py.map 15 "rfc7292.pkcs12BagTypeMap") Rfc7292.pkcs12BagTypeMap /- rfc7292.py:41 -/,
   .create (Py.map 16 "rfc7292.pkcs12CertBagMap") Rfc7292.pkcs12CertBagMap /- rfc7292.py:43 -/,
   .create (Py.map 17 "rfc7292.pkcs12CRLBagMap") Rfc7292.pkcs12CRLBagMap /- rfc7292.py:45 -/,
   .create (Py.map 18 "rfc7292.pkcs12SecretBagMap") Rfc7292.pkcs12SecretBagMap /- rfc7292.py:47 -/,
   .create (Py.map 122 "rfc7292._pkcs12BagTypeMap") Rfc7292._pkcs12BagTypeMap /- rfc7292.py:309-316 -/,
   .update (Py.map 15 "rfc7292.pkcs12BagTypeMap") Rfc7292._pkcs12BagTypeMap /- rfc7292.py:318 -/,
   .create (Py.map 123 "rfc7292._pkcs12CertBagMap") Rfc7292._pkcs12CertBagMap /- rfc7292.py:321-324 -/,
   .update (Py.map 16 "rfc7292.pkcs12CertBagMap") Rfc7292._pkcs12CertBagMap /- rfc7292.py:326 -/,
   .create (Py.map 124 "rfc7292._pkcs12CRLBagMap") Rfc7292._pkcs12CRLBagMap /- rfc7292.py:329-331 -/,
   .update (Py.map 17 "rfc7292.pkcs12CRLBagMap") Rfc7292._pkcs12CRLBagMap /- rfc7292.py:333 -/,
   .create (Py.map 125 "rfc7292._algorithmIdentifierMapUpdate") Rfc7292._algorithmIdentifierMapUpdate /- rfc7292.py:338-345 -/,
   .update (Py.map 3 "rfc5280.algorithmIdentifierMap") Rfc7292._algorithmIdentifierMapUpdate /- rfc7292.py:347 -/,
   .create (Py.map 126 "rfc7292._cmsAttributesMapUpdate") Rfc7292._cmsAttributesMapUpdate /- rfc7292.py:352-355 -/,
   .update (Py.map 8 "rfc5652.cmsAttributesMap") Rfc7292._cmsAttributesMapUpdate /- rfc7292.py:357 -/]

/-- ASN.1 types rfc7292.py binds at module level (final version of each name), plus nested classes. -/
def classes : List (String × Py.Obj) :=
  [("rfc7292.DigestInfo", Rfc7292.DigestInfo),
   ("rfc7292.ContentInfo", Rfc7292.ContentInfo),
   ("rfc7292.PKCS12Attribute", Rfc7292.PKCS12Attribute),
   ("rfc7292.EncryptedPrivateKeyInfo", Rfc7292.EncryptedPrivateKeyInfo),
   ("rfc7292.PrivateKeyInfo", Rfc7292.PrivateKeyInfo),
   ("rfc7292.AttributeType", Rfc7292.AttributeType),
   ("rfc7292.AttributeValue", Rfc7292.AttributeValue),
   ("rfc7292.AttributeValues", Rfc7292.AttributeValues),
   ("rfc7292.CMSSingleAttribute", Rfc7292.CMSSingleAttribute),
   ("rfc7292.Pkcs_12PbeParams", Rfc7292.Pkcs_12PbeParams),
   ("rfc7292.BAG_TYPE", Rfc7292.BAG_TYPE),
   ("rfc7292.KeyBag", Rfc7292.KeyBag),
   ("rfc7292.PKCS8ShroudedKeyBag", Rfc7292.PKCS8ShroudedKeyBag),
   ("rfc7292.CertBag", Rfc7292.CertBag),
   ("rfc7292.CRLBag", Rfc7292.CRLBag),
   ("rfc7292.SecretBag", Rfc7292.SecretBag),
   ("rfc7292.SafeBag", Rfc7292.SafeBag),
   ("rfc7292.SafeContents", Rfc7292.SafeContents),
   ("rfc7292.AuthenticatedSafe", Rfc7292.AuthenticatedSafe),
   ("rfc7292.MacData", Rfc7292.MacData),
   ("rfc7292.PFX", Rfc7292.PFX),
   ("rfc7292.FriendlyName", Rfc7292.FriendlyName)]

/-- pyasn1 instances rfc7292.py binds at module level. -/
def objects : List (String × Py.Obj) :=
  [("rfc7292.rsadsi", Rfc7292.rsadsi),
   ("rfc7292.pkcs", Rfc7292.pkcs),
   ("rfc7292.pkcs_9", Rfc7292.pkcs_9),
   ("rfc7292.certTypes", Rfc7292.certTypes),
   ("rfc7292.crlTypes", Rfc7292.crlTypes),
   ("rfc7292.pkcs_12", Rfc7292.pkcs_12),
   ("rfc7292.pkcs_12PbeIds", Rfc7292.pkcs_12PbeIds),
   ("rfc7292.pbeWithSHAAnd128BitRC4", Rfc7292.pbeWithSHAAnd128BitRC4),
   ("rfc7292.pbeWithSHAAnd40BitRC4", Rfc7292.pbeWithSHAAnd40BitRC4),
   ("rfc7292.pbeWithSHAAnd3_KeyTripleDES_CBC", Rfc7292.pbeWithSHAAnd3_KeyTripleDES_CBC),
   ("rfc7292.pbeWithSHAAnd2_KeyTripleDES_CBC", Rfc7292.pbeWithSHAAnd2_KeyTripleDES_CBC),
   ("rfc7292.pbeWithSHAAnd128BitRC2_CBC", Rfc7292.pbeWithSHAAnd128BitRC2_CBC),
   ("rfc7292.pbeWithSHAAnd40BitRC2_CBC", Rfc7292.pbeWithSHAAnd40BitRC2_CBC),
   ("rfc7292.bagtypes", Rfc7292.bagtypes),
   ("rfc7292.id_keyBag", Rfc7292.id_keyBag),
   ("rfc7292.id_pkcs8ShroudedKeyBag", Rfc7292.id_pkcs8ShroudedKeyBag),
   ("rfc7292.id_certBag", Rfc7292.id_certBag),
   ("rfc7292.id_CRLBag", Rfc7292.id_CRLBag),
   ("rfc7292.id_secretBag", Rfc7292.id_secretBag),
   ("rfc7292.id_safeContentsBag", Rfc7292.id_safeContentsBag),
   ("rfc7292.pkcs_9_at_localKeyId", Rfc7292.pkcs_9_at_localKeyId),
   ("rfc7292.pkcs_9_ub_pkcs9String", Rfc7292.pkcs_9_ub_pkcs9String),
   ("rfc7292.pkcs_9_ub_friendlyName", Rfc7292.pkcs_9_ub_friendlyName),
   ("rfc7292.pkcs_9_at_friendlyName", Rfc7292.pkcs_9_at_friendlyName)]

/-- pyasn1 instances rfc7292.py fills in by item assignment. -/
def protos : List (String × Py.Proto) :=
  [("rfc7292.x509Certificate", Rfc7292.x509Certificate),
   ("rfc7292.sdsiCertificate", Rfc7292.sdsiCertificate),
   ("rfc7292.x509CRL", Rfc7292.x509CRL),
   ("rfc7292.localKeyId", Rfc7292.localKeyId),
   ("rfc7292.friendlyName", Rfc7292.friendlyName)]

/-- Every place of rfc7292.py that instantiates a class of the package: where, the class as it is
at that point, and the class as it is when the import has finished. -/
def snapshots : List Py.Snapshot :=
  [⟨"rfc7292.py:79", Rfc7292.AttributeValue, Rfc7292.AttributeValue⟩,
   ⟨"rfc7292.py:86", Rfc7292.AttributeType, Rfc7292.AttributeType⟩,
   ⟨"rfc7292.py:88", Rfc7292.AttributeValues, Rfc7292.AttributeValues⟩,
   ⟨"rfc7292.py:176", Rfc7292.CertBag, Rfc7292.CertBag⟩,
   ⟨"rfc7292.py:182", Rfc7292.CertBag, Rfc7292.CertBag⟩,
   ⟨"rfc7292.py:202", Rfc7292.CRLBag, Rfc7292.CRLBag⟩,
   ⟨"rfc7292.py:234", Rfc7292.PKCS12Attribute, Rfc7292.PKCS12Attribute⟩,
   ⟨"rfc7292.py:242", Rfc7292.SafeBag, Rfc7292.SafeBag⟩,
   ⟨"rfc7292.py:250", Rfc7292.ContentInfo, Rfc7292.ContentInfo⟩,
   ⟨"rfc7292.py:260", Rfc7292.DigestInfo, Rfc7292.DigestInfo⟩,
   ⟨"rfc7292.py:274", Rfc7292.ContentInfo, Rfc7292.ContentInfo⟩,
   ⟨"rfc7292.py:275", Rfc7292.MacData, Rfc7292.MacData⟩,
   ⟨"rfc7292.py:283", Rfc7292.CMSSingleAttribute, Rfc7292.CMSSingleAttribute⟩,
   ⟨"rfc7292.py:302", Rfc7292.CMSSingleAttribute, Rfc7292.CMSSingleAttribute⟩,
   ⟨"rfc7292.py:304", Rfc7292.FriendlyName, Rfc7292.FriendlyName⟩,
   ⟨"rfc7292.py:310", Rfc7292.KeyBag, Rfc7292.KeyBag⟩,
   ⟨"rfc7292.py:311", Rfc7292.PKCS8ShroudedKeyBag, Rfc7292.PKCS8ShroudedKeyBag⟩,
   ⟨"rfc7292.py:312", Rfc7292.CertBag, Rfc7292.CertBag⟩,
   ⟨"rfc7292.py:313", Rfc7292.CRLBag, Rfc7292.CRLBag⟩,
   ⟨"rfc7292.py:314", Rfc7292.SecretBag, Rfc7292.SecretBag⟩,
   ⟨"rfc7292.py:315", Rfc7292.SafeBag, Rfc7292.SafeBag⟩,
   ⟨"rfc7292.py:339", Rfc7292.Pkcs_12PbeParams, Rfc7292.Pkcs_12PbeParams⟩,
   ⟨"rfc7292.py:340", Rfc7292.Pkcs_12PbeParams, Rfc7292.Pkcs_12PbeParams⟩,
   ⟨"rfc7292.py:341", Rfc7292.Pkcs_12PbeParams, Rfc7292.Pkcs_12PbeParams⟩,
   ⟨"rfc7292.py:342", Rfc7292.Pkcs_12PbeParams, Rfc7292.Pkcs_12PbeParams⟩,
   ⟨"rfc7292.py:343", Rfc7292.Pkcs_12PbeParams, Rfc7292.Pkcs_12PbeParams⟩,
   ⟨"rfc7292.py:344", Rfc7292.Pkcs_12PbeParams, Rfc7292.Pkcs_12PbeParams⟩,
   ⟨"rfc7292.py:353", Rfc7292.FriendlyName, Rfc7292.FriendlyName⟩]

/-- Functions rfc7292.py defines. -/
def builders : List (String × (List Py.OidArg → Py.Obj)) :=
  [("rfc7292._OID", Rfc7292._OID)]

def asModule : Py.Module :=
  { id := (Py.mod 23 "rfc7292"), imports := imports, effects := effects, classes := classes, objects := objects, protos := protos, snapshots := snapshots, builders := builders }

end Rfc7292
end Verif
