import Verif.Py.Obj
import Verif.Gen.Rfc7292
import Verif.Gen.Rfc5958
import Verif.Gen.Rfc5652
import Verif.Gen.Rfc5280

/-! Transcription of /repo/pyasn1_modules/rfc2985.py (generated by tools/gen.py). -/

namespace Verif
namespace Rfc2985

/-- rfc2985.py:30-38 `def _OID(*components)` -/
def _OID (components : List Py.OidArg) : Py.Obj :=
  match Py.oidLoop [] components with
  | some output => Py.univ.ObjectIdentifier.call.callArcs output
  | none => .fail "OID without value"

/-- rfc2985.py:41 -/
def MAX : Py.Bound :=
  .inf

/-- rfc2985.py:46 alias of `rfc5280.AlgorithmIdentifier` -/
def AlgorithmIdentifier : Py.Obj :=
  Rfc5280.AlgorithmIdentifier

/-- rfc2985.py:48 alias of `rfc5280.Attribute` -/
def Attribute : Py.Obj :=
  Rfc5280.Attribute

/-- rfc2985.py:50 alias of `rfc5280.EmailAddress` -/
def EmailAddress : Py.Obj :=
  Rfc5280.EmailAddress

/-- rfc2985.py:52 alias of `rfc5280.Extensions` -/
def Extensions : Py.Obj :=
  Rfc5280.Extensions

/-- rfc2985.py:54 alias of `rfc5280.Time` -/
def Time : Py.Obj :=
  Rfc5280.Time

/-- rfc2985.py:56 alias of `rfc5280.X520countryName` -/
def X520countryName : Py.Obj :=
  Rfc5280.X520countryName

/-- rfc2985.py:58 alias of `rfc5280.X520SerialNumber` -/
def X520SerialNumber : Py.Obj :=
  Rfc5280.X520SerialNumber

/-- rfc2985.py:63 alias of `rfc5652.ContentInfo` -/
def ContentInfo : Py.Obj :=
  Rfc5652.ContentInfo

/-- rfc2985.py:65 alias of `rfc5652.ContentType` -/
def ContentType : Py.Obj :=
  Rfc5652.ContentType

/-- rfc2985.py:67 alias of `rfc5652.Countersignature` -/
def Countersignature : Py.Obj :=
  Rfc5652.Countersignature

/-- rfc2985.py:69 alias of `rfc5652.MessageDigest` -/
def MessageDigest : Py.Obj :=
  Rfc5652.MessageDigest

/-- rfc2985.py:71 alias of `rfc5652.SignerInfo` -/
def SignerInfo : Py.Obj :=
  Rfc5652.SignerInfo

/-- rfc2985.py:73 alias of `rfc5652.SigningTime` -/
def SigningTime : Py.Obj :=
  Rfc5652.SigningTime

/-- rfc2985.py:78 alias of `rfc5958.EncryptedPrivateKeyInfo` -/
def EncryptedPrivateKeyInfo : Py.Obj :=
  Rfc5958.EncryptedPrivateKeyInfo

/-- rfc2985.py:83 alias of `rfc7292.PFX` -/
def PFX : Py.Obj :=
  Rfc7292.PFX

/-- rfc2985.py:93-94 `class AttributeType(univ.ObjectIdentifier)` -/
def AttributeType : Py.Obj :=
  Py.univ.ObjectIdentifier

/-- rfc2985.py:97-98 `class AttributeValue(univ.Any)` -/
def AttributeValue : Py.Obj :=
  Py.univ.Any

/-- rfc2985.py:101-102 `class AttributeValues(univ.SetOf)` -/
def AttributeValues__0 : Py.Obj :=
  Py.univ.SetOf

/-- rfc2985.py:104 `AttributeValues.componentType = ...` -/
def AttributeValues : Py.Obj :=
  Rfc2985.AttributeValues__0.setComponentTypeOf Rfc2985.AttributeValue.call

/-- rfc2985.py:107-108 `class SingleAttributeValues(univ.SetOf)` -/
def SingleAttributeValues__0 : Py.Obj :=
  Py.univ.SetOf

/-- rfc2985.py:110 `SingleAttributeValues.componentType = ...` -/
def SingleAttributeValues : Py.Obj :=
  Rfc2985.SingleAttributeValues__0.setComponentTypeOf Rfc2985.AttributeValue.call

/-- rfc2985.py:113-114 `class SingleAttribute(univ.Sequence)` -/
def SingleAttribute__0 : Py.Obj :=
  Py.univ.Sequence

/-- rfc2985.py:116-122 `SingleAttribute.componentType = ...` -/
def SingleAttribute : Py.Obj :=
  Rfc2985.SingleAttribute__0.setComponentType (Py.NamedTypes [
    Py.NamedType "type" Rfc2985.AttributeType.call,
    Py.NamedType "values" (Rfc2985.AttributeValues.call.addSizeSpec (Py.ValueSizeConstraint (.fin 1) (.fin 1))) (openType := some (Py.OpenType "type" (Py.map 4 "rfc5280.certificateAttributesMap")))])

/-- rfc2985.py:128 alias of `rfc5652.Attribute` -/
def CMSAttribute : Py.Obj :=
  Rfc5652.Attribute

/-- rfc2985.py:131-132 `class CMSSingleAttribute(univ.Sequence)` -/
def CMSSingleAttribute__0 : Py.Obj :=
  Py.univ.Sequence

/-- rfc2985.py:134-140 `CMSSingleAttribute.componentType = ...` -/
def CMSSingleAttribute : Py.Obj :=
  Rfc2985.CMSSingleAttribute__0.setComponentType (Py.NamedTypes [
    Py.NamedType "attrType" Rfc2985.AttributeType.call,
    Py.NamedType "attrValues" (Rfc2985.AttributeValues.call.addSizeSpec (Py.ValueSizeConstraint (.fin 1) (.fin 1))) (openType := some (Py.OpenType "attrType" (Py.map 8 "rfc5652.cmsAttributesMap")))])

/-- rfc2985.py:145-146 `class DirectoryString(univ.Choice)` -/
def DirectoryString__0 : Py.Obj :=
  Py.univ.Choice

/-- rfc2985.py:148-159 `DirectoryString.componentType = ...` -/
def DirectoryString : Py.Obj :=
  Rfc2985.DirectoryString__0.setComponentType (Py.NamedTypes [
    Py.NamedType "teletexString" (Py.char.TeletexString.call.addSubtypeSpec (Py.ValueSizeConstraint (.fin 1) (.fin 255))),
    Py.NamedType "printableString" (Py.char.PrintableString.call.addSubtypeSpec (Py.ValueSizeConstraint (.fin 1) (.fin 255))),
    Py.NamedType "universalString" (Py.char.UniversalString.call.addSubtypeSpec (Py.ValueSizeConstraint (.fin 1) (.fin 255))),
    Py.NamedType "utf8String" (Py.char.UTF8String.call.addSubtypeSpec (Py.ValueSizeConstraint (.fin 1) (.fin 255))),
    Py.NamedType "bmpString" (Py.char.BMPString.call.addSubtypeSpec (Py.ValueSizeConstraint (.fin 1) (.fin 255)))])

/-- rfc2985.py:165-166 `class PKCS9String(univ.Choice)` -/
def PKCS9String__0 : Py.Obj :=
  Py.univ.Choice

/-- rfc2985.py:168-172 `PKCS9String.componentType = ...` -/
def PKCS9String : Py.Obj :=
  Rfc2985.PKCS9String__0.setComponentType (Py.NamedTypes [
    Py.NamedType "ia5String" (Py.char.IA5String.call.addSubtypeSpec (Py.ValueSizeConstraint (.fin 1) (.fin 255))),
    Py.NamedType "directoryString" Rfc2985.DirectoryString.call])

/-- rfc2985.py:177 -/
def pkcs_9_ub_pkcs9String : Py.Obj :=
  (Py.univ.Integer.call.callInt 255)

/-- rfc2985.py:179 -/
def pkcs_9_ub_challengePassword : Py.Obj :=
  (Py.univ.Integer.call.callObj Rfc2985.pkcs_9_ub_pkcs9String)

/-- rfc2985.py:181 -/
def pkcs_9_ub_emailAddress : Py.Obj :=
  (Py.univ.Integer.call.callObj Rfc2985.pkcs_9_ub_pkcs9String)

/-- rfc2985.py:183 -/
def pkcs_9_ub_friendlyName : Py.Obj :=
  (Py.univ.Integer.call.callObj Rfc2985.pkcs_9_ub_pkcs9String)

/-- rfc2985.py:185 -/
def pkcs_9_ub_match : Py.Obj :=
  (Py.univ.Integer.call.callObj Rfc2985.pkcs_9_ub_pkcs9String)

/-- rfc2985.py:187 -/
def pkcs_9_ub_signingDescription : Py.Obj :=
  (Py.univ.Integer.call.callObj Rfc2985.pkcs_9_ub_pkcs9String)

/-- rfc2985.py:189 -/
def pkcs_9_ub_unstructuredAddress : Py.Obj :=
  (Py.univ.Integer.call.callObj Rfc2985.pkcs_9_ub_pkcs9String)

/-- rfc2985.py:191 -/
def pkcs_9_ub_unstructuredName : Py.Obj :=
  (Py.univ.Integer.call.callObj Rfc2985.pkcs_9_ub_pkcs9String)

/-- rfc2985.py:194 -/
def ub_name : Py.Obj :=
  (Py.univ.Integer.call.callInt 32768)

/-- rfc2985.py:196 -/
def pkcs_9_ub_placeOfBirth : Py.Obj :=
  (Py.univ.Integer.call.callObj Rfc2985.ub_name)

/-- rfc2985.py:198 -/
def pkcs_9_ub_pseudonym : Py.Obj :=
  (Py.univ.Integer.call.callObj Rfc2985.ub_name)

/-- rfc2985.py:203 -/
def ietf_at : Py.Obj :=
  (Rfc2985._OID [.num 1, .num 3, .num 6, .num 1, .num 5, .num 5, .num 7, .num 9])

/-- rfc2985.py:205 -/
def id_at : Py.Obj :=
  (Rfc2985._OID [.num 2, .num 5, .num 4])

/-- rfc2985.py:207 -/
def pkcs_9 : Py.Obj :=
  (Rfc2985._OID [.num 1, .num 2, .num 840, .num 113549, .num 1, .num 9])

/-- rfc2985.py:209 -/
def pkcs_9_mo : Py.Obj :=
  (Rfc2985._OID [.oid Rfc2985.pkcs_9, .num 0])

/-- rfc2985.py:211 -/
def smime : Py.Obj :=
  (Rfc2985._OID [.oid Rfc2985.pkcs_9, .num 16])

/-- rfc2985.py:213 -/
def certTypes : Py.Obj :=
  (Rfc2985._OID [.oid Rfc2985.pkcs_9, .num 22])

/-- rfc2985.py:215 -/
def crlTypes : Py.Obj :=
  (Rfc2985._OID [.oid Rfc2985.pkcs_9, .num 23])

/-- rfc2985.py:217 -/
def pkcs_9_oc : Py.Obj :=
  (Rfc2985._OID [.oid Rfc2985.pkcs_9, .num 24])

/-- rfc2985.py:219 -/
def pkcs_9_at : Py.Obj :=
  (Rfc2985._OID [.oid Rfc2985.pkcs_9, .num 25])

/-- rfc2985.py:221 -/
def pkcs_9_sx : Py.Obj :=
  (Rfc2985._OID [.oid Rfc2985.pkcs_9, .num 26])

/-- rfc2985.py:223 -/
def pkcs_9_mr : Py.Obj :=
  (Rfc2985._OID [.oid Rfc2985.pkcs_9, .num 27])

/-- rfc2985.py:228 -/
def pkcs_9_sx_pkcs9String : Py.Obj :=
  (Rfc2985._OID [.oid Rfc2985.pkcs_9_sx, .num 1])

/-- rfc2985.py:230 -/
def pkcs_9_sx_signingTime : Py.Obj :=
  (Rfc2985._OID [.oid Rfc2985.pkcs_9_sx, .num 2])

/-- rfc2985.py:235 -/
def pkcs_9_oc_pkcsEntity : Py.Obj :=
  (Rfc2985._OID [.oid Rfc2985.pkcs_9_oc, .num 1])

/-- rfc2985.py:237 -/
def pkcs_9_oc_naturalPerson : Py.Obj :=
  (Rfc2985._OID [.oid Rfc2985.pkcs_9_oc, .num 2])

/-- rfc2985.py:242 -/
def pkcs_9_mr_caseIgnoreMatch : Py.Obj :=
  (Rfc2985._OID [.oid Rfc2985.pkcs_9_mr, .num 1])

/-- rfc2985.py:244 -/
def pkcs_9_mr_signingTimeMatch : Py.Obj :=
  (Rfc2985._OID [.oid Rfc2985.pkcs_9_mr, .num 2])

/-- rfc2985.py:249 -/
def pkcs_9_at_pkcs7PDU : Py.Obj :=
  (Rfc2985._OID [.oid Rfc2985.pkcs_9_at, .num 5])

/-- rfc2985.py:251 -/
def pKCS7PDU__0 : Py.Proto :=
  { obj := Rfc2985.Attribute.call }

/-- rfc2985.py:252 `pKCS7PDU['type'] = ...` -/
def pKCS7PDU__1 : Py.Proto :=
  Rfc2985.pKCS7PDU__0.set "type" (.obj Rfc2985.pkcs_9_at_pkcs7PDU)

/-- rfc2985.py:253 `pKCS7PDU['values'][0] = ...` -/
def pKCS7PDU : Py.Proto :=
  Rfc2985.pKCS7PDU__1.set "values" (.elem0 Rfc2985.ContentInfo.call)

/-- rfc2985.py:258 -/
def pkcs_9_at_userPKCS12 : Py.Obj :=
  (Rfc2985._OID [.num 2, .num 16, .num 840, .num 1, .num 113730, .num 3, .num 1, .num 216])

/-- rfc2985.py:260 -/
def userPKCS12__0 : Py.Proto :=
  { obj := Rfc2985.Attribute.call }

/-- rfc2985.py:261 `userPKCS12['type'] = ...` -/
def userPKCS12__1 : Py.Proto :=
  Rfc2985.userPKCS12__0.set "type" (.obj Rfc2985.pkcs_9_at_userPKCS12)

/-- rfc2985.py:262 `userPKCS12['values'][0] = ...` -/
def userPKCS12 : Py.Proto :=
  Rfc2985.userPKCS12__1.set "values" (.elem0 Rfc2985.PFX.call)

/-- rfc2985.py:267 -/
def pkcs_9_at_pkcs15Token : Py.Obj :=
  (Rfc2985._OID [.oid Rfc2985.pkcs_9_at, .num 1])

/-- rfc2985.py:278 -/
def pkcs_9_at_encryptedPrivateKeyInfo : Py.Obj :=
  (Rfc2985._OID [.oid Rfc2985.pkcs_9_at, .num 2])

/-- rfc2985.py:280 -/
def encryptedPrivateKeyInfo__0 : Py.Proto :=
  { obj := Rfc2985.Attribute.call }

/-- rfc2985.py:281 `encryptedPrivateKeyInfo['type'] = ...` -/
def encryptedPrivateKeyInfo__1 : Py.Proto :=
  Rfc2985.encryptedPrivateKeyInfo__0.set "type" (.obj Rfc2985.pkcs_9_at_encryptedPrivateKeyInfo)

/-- rfc2985.py:282 `encryptedPrivateKeyInfo['values'][0] = ...` -/
def encryptedPrivateKeyInfo : Py.Proto :=
  Rfc2985.encryptedPrivateKeyInfo__1.set "values" (.elem0 Rfc2985.EncryptedPrivateKeyInfo.call)

/-- rfc2985.py:287 alias of `rfc5280.id_emailAddress` -/
def pkcs_9_at_emailAddress : Py.Obj :=
  Rfc5280.id_emailAddress

/-- rfc2985.py:289 -/
def emailAddress__0 : Py.Proto :=
  { obj := Rfc2985.Attribute.call }

/-- rfc2985.py:290 `emailAddress['type'] = ...` -/
def emailAddress__1 : Py.Proto :=
  Rfc2985.emailAddress__0.set "type" (.obj Rfc2985.pkcs_9_at_emailAddress)

/-- rfc2985.py:291 `emailAddress['values'][0] = ...` -/
def emailAddress : Py.Proto :=
  Rfc2985.emailAddress__1.set "values" (.elem0 Rfc2985.EmailAddress.call)

/-- rfc2985.py:296 -/
def pkcs_9_at_unstructuredName : Py.Obj :=
  (Rfc2985._OID [.oid Rfc2985.pkcs_9, .num 2])

/-- rfc2985.py:298 -/
def unstructuredName__0 : Py.Proto :=
  { obj := Rfc2985.Attribute.call }

/-- rfc2985.py:299 `unstructuredName['type'] = ...` -/
def unstructuredName__1 : Py.Proto :=
  Rfc2985.unstructuredName__0.set "type" (.obj Rfc2985.pkcs_9_at_unstructuredName)

/-- rfc2985.py:300 `unstructuredName['values'][0] = ...` -/
def unstructuredName : Py.Proto :=
  Rfc2985.unstructuredName__1.set "values" (.elem0 Rfc2985.PKCS9String.call)

/-- rfc2985.py:305 -/
def pkcs_9_at_unstructuredAddress : Py.Obj :=
  (Rfc2985._OID [.oid Rfc2985.pkcs_9, .num 8])

/-- rfc2985.py:307 -/
def unstructuredAddress__0 : Py.Proto :=
  { obj := Rfc2985.Attribute.call }

/-- rfc2985.py:308 `unstructuredAddress['type'] = ...` -/
def unstructuredAddress__1 : Py.Proto :=
  Rfc2985.unstructuredAddress__0.set "type" (.obj Rfc2985.pkcs_9_at_unstructuredAddress)

/-- rfc2985.py:309 `unstructuredAddress['values'][0] = ...` -/
def unstructuredAddress : Py.Proto :=
  Rfc2985.unstructuredAddress__1.set "values" (.elem0 Rfc2985.DirectoryString.call)

/-- rfc2985.py:314 -/
def pkcs_9_at_dateOfBirth : Py.Obj :=
  (Rfc2985._OID [.oid Rfc2985.ietf_at, .num 1])

/-- rfc2985.py:316 -/
def dateOfBirth__0 : Py.Proto :=
  { obj := Rfc2985.SingleAttribute.call }

/-- rfc2985.py:317 `dateOfBirth['type'] = ...` -/
def dateOfBirth__1 : Py.Proto :=
  Rfc2985.dateOfBirth__0.set "type" (.obj Rfc2985.pkcs_9_at_dateOfBirth)

/-- rfc2985.py:318 `dateOfBirth['values'][0] = ...` -/
def dateOfBirth : Py.Proto :=
  Rfc2985.dateOfBirth__1.set "values" (.elem0 Py.useful.GeneralizedTime.call)

/-- rfc2985.py:323 -/
def pkcs_9_at_placeOfBirth : Py.Obj :=
  (Rfc2985._OID [.oid Rfc2985.ietf_at, .num 2])

/-- rfc2985.py:325 -/
def placeOfBirth__0 : Py.Proto :=
  { obj := Rfc2985.SingleAttribute.call }

/-- rfc2985.py:326 `placeOfBirth['type'] = ...` -/
def placeOfBirth__1 : Py.Proto :=
  Rfc2985.placeOfBirth__0.set "type" (.obj Rfc2985.pkcs_9_at_placeOfBirth)

/-- rfc2985.py:327 `placeOfBirth['values'][0] = ...` -/
def placeOfBirth : Py.Proto :=
  Rfc2985.placeOfBirth__1.set "values" (.elem0 Rfc2985.DirectoryString.call)

/-- rfc2985.py:332-333 `class GenderString(char.PrintableString)` -/
def GenderString__0 : Py.Obj :=
  Py.char.PrintableString

/-- rfc2985.py:335 `GenderString.subtypeSpec = ...` -/
def GenderString__1 : Py.Obj :=
  Rfc2985.GenderString__0.setSubtypeSpec (Py.ValueSizeConstraint (.fin 1) (.fin 1))

/-- rfc2985.py:336 `GenderString.subtypeSpec = ...` -/
def GenderString : Py.Obj :=
  Rfc2985.GenderString__1.setSubtypeSpec (Py.SingleValueConstraint [(Py.str "M"), (Py.str "F"), (Py.str "m"), (Py.str "f")])

/-- rfc2985.py:339 -/
def pkcs_9_at_gender : Py.Obj :=
  (Rfc2985._OID [.oid Rfc2985.ietf_at, .num 3])

/-- rfc2985.py:341 -/
def gender__0 : Py.Proto :=
  { obj := Rfc2985.SingleAttribute.call }

/-- rfc2985.py:342 `gender['type'] = ...` -/
def gender__1 : Py.Proto :=
  Rfc2985.gender__0.set "type" (.obj Rfc2985.pkcs_9_at_gender)

/-- rfc2985.py:343 `gender['values'][0] = ...` -/
def gender : Py.Proto :=
  Rfc2985.gender__1.set "values" (.elem0 Rfc2985.GenderString.call)

/-- rfc2985.py:348 -/
def pkcs_9_at_countryOfCitizenship : Py.Obj :=
  (Rfc2985._OID [.oid Rfc2985.ietf_at, .num 4])

/-- rfc2985.py:350 -/
def countryOfCitizenship__0 : Py.Proto :=
  { obj := Rfc2985.Attribute.call }

/-- rfc2985.py:351 `countryOfCitizenship['type'] = ...` -/
def countryOfCitizenship__1 : Py.Proto :=
  Rfc2985.countryOfCitizenship__0.set "type" (.obj Rfc2985.pkcs_9_at_countryOfCitizenship)

/-- rfc2985.py:352 `countryOfCitizenship['values'][0] = ...` -/
def countryOfCitizenship : Py.Proto :=
  Rfc2985.countryOfCitizenship__1.set "values" (.elem0 Rfc2985.X520countryName.call)

/-- rfc2985.py:357 -/
def pkcs_9_at_countryOfResidence : Py.Obj :=
  (Rfc2985._OID [.oid Rfc2985.ietf_at, .num 5])

/-- rfc2985.py:359 -/
def countryOfResidence__0 : Py.Proto :=
  { obj := Rfc2985.Attribute.call }

/-- rfc2985.py:360 `countryOfResidence['type'] = ...` -/
def countryOfResidence__1 : Py.Proto :=
  Rfc2985.countryOfResidence__0.set "type" (.obj Rfc2985.pkcs_9_at_countryOfResidence)

/-- rfc2985.py:361 `countryOfResidence['values'][0] = ...` -/
def countryOfResidence : Py.Proto :=
  Rfc2985.countryOfResidence__1.set "values" (.elem0 Rfc2985.X520countryName.call)

/-- rfc2985.py:366 -/
def id_at_pseudonym : Py.Obj :=
  (Rfc2985._OID [.num 2, .num 5, .num 4, .num 65])

/-- rfc2985.py:368 -/
def pseudonym__0 : Py.Proto :=
  { obj := Rfc2985.Attribute.call }

/-- rfc2985.py:369 `pseudonym['type'] = ...` -/
def pseudonym__1 : Py.Proto :=
  Rfc2985.pseudonym__0.set "type" (.obj Rfc2985.id_at_pseudonym)

/-- rfc2985.py:370 `pseudonym['values'][0] = ...` -/
def pseudonym : Py.Proto :=
  Rfc2985.pseudonym__1.set "values" (.elem0 Rfc2985.DirectoryString.call)

/-- rfc2985.py:375 alias of `rfc5280.id_at_serialNumber` -/
def id_at_serialNumber : Py.Obj :=
  Rfc5280.id_at_serialNumber

/-- rfc2985.py:377 -/
def serialNumber__0 : Py.Proto :=
  { obj := Rfc2985.Attribute.call }

/-- rfc2985.py:378 `serialNumber['type'] = ...` -/
def serialNumber__1 : Py.Proto :=
  Rfc2985.serialNumber__0.set "type" (.obj Rfc2985.id_at_serialNumber)

/-- rfc2985.py:379 `serialNumber['values'][0] = ...` -/
def serialNumber : Py.Proto :=
  Rfc2985.serialNumber__1.set "values" (.elem0 Rfc2985.X520SerialNumber.call)

/-- rfc2985.py:384 alias of `rfc5652.id_contentType` -/
def pkcs_9_at_contentType : Py.Obj :=
  Rfc5652.id_contentType

/-- rfc2985.py:386 -/
def contentType__0 : Py.Proto :=
  { obj := Rfc2985.CMSSingleAttribute.call }

/-- rfc2985.py:387 `contentType['attrType'] = ...` -/
def contentType__1 : Py.Proto :=
  Rfc2985.contentType__0.set "attrType" (.obj Rfc2985.pkcs_9_at_contentType)

/-- rfc2985.py:388 `contentType['attrValues'][0] = ...` -/
def contentType : Py.Proto :=
  Rfc2985.contentType__1.set "attrValues" (.elem0 Rfc2985.ContentType.call)

/-- rfc2985.py:393 alias of `rfc5652.id_messageDigest` -/
def pkcs_9_at_messageDigest : Py.Obj :=
  Rfc5652.id_messageDigest

/-- rfc2985.py:395 -/
def messageDigest__0 : Py.Proto :=
  { obj := Rfc2985.CMSSingleAttribute.call }

/-- rfc2985.py:396 `messageDigest['attrType'] = ...` -/
def messageDigest__1 : Py.Proto :=
  Rfc2985.messageDigest__0.set "attrType" (.obj Rfc2985.pkcs_9_at_messageDigest)

/-- rfc2985.py:397 `messageDigest['attrValues'][0] = ...` -/
def messageDigest : Py.Proto :=
  Rfc2985.messageDigest__1.set "attrValues" (.elem0 Rfc2985.MessageDigest.call)

/-- rfc2985.py:402 alias of `rfc5652.id_signingTime` -/
def pkcs_9_at_signingTime : Py.Obj :=
  Rfc5652.id_signingTime

/-- rfc2985.py:404 -/
def signingTime__0 : Py.Proto :=
  { obj := Rfc2985.CMSSingleAttribute.call }

/-- rfc2985.py:405 `signingTime['attrType'] = ...` -/
def signingTime__1 : Py.Proto :=
  Rfc2985.signingTime__0.set "attrType" (.obj Rfc2985.pkcs_9_at_signingTime)

/-- rfc2985.py:406 `signingTime['attrValues'][0] = ...` -/
def signingTime : Py.Proto :=
  Rfc2985.signingTime__1.set "attrValues" (.elem0 Rfc2985.SigningTime.call)

/-- rfc2985.py:411-412 `class RandomNonce(univ.OctetString)` -/
def RandomNonce__0 : Py.Obj :=
  Py.univ.OctetString

/-- rfc2985.py:414 `RandomNonce.subtypeSpec = ...` -/
def RandomNonce : Py.Obj :=
  Rfc2985.RandomNonce__0.setSubtypeSpec (Py.ValueSizeConstraint (.fin 4) Rfc2985.MAX)

/-- rfc2985.py:417 -/
def pkcs_9_at_randomNonce : Py.Obj :=
  (Rfc2985._OID [.oid Rfc2985.pkcs_9_at, .num 3])

/-- rfc2985.py:419 -/
def randomNonce__0 : Py.Proto :=
  { obj := Rfc2985.CMSSingleAttribute.call }

/-- rfc2985.py:420 `randomNonce['attrType'] = ...` -/
def randomNonce__1 : Py.Proto :=
  Rfc2985.randomNonce__0.set "attrType" (.obj Rfc2985.pkcs_9_at_randomNonce)

/-- rfc2985.py:421 `randomNonce['attrValues'][0] = ...` -/
def randomNonce : Py.Proto :=
  Rfc2985.randomNonce__1.set "attrValues" (.elem0 Rfc2985.RandomNonce.call)

/-- rfc2985.py:426-427 `class SequenceNumber(univ.Integer)` -/
def SequenceNumber__0 : Py.Obj :=
  Py.univ.Integer

/-- rfc2985.py:429 `SequenceNumber.subtypeSpec = ...` -/
def SequenceNumber : Py.Obj :=
  Rfc2985.SequenceNumber__0.setSubtypeSpec (Py.ValueRangeConstraint (.fin 1) Rfc2985.MAX)

/-- rfc2985.py:432 -/
def pkcs_9_at_sequenceNumber : Py.Obj :=
  (Rfc2985._OID [.oid Rfc2985.pkcs_9_at, .num 4])

/-- rfc2985.py:434 -/
def sequenceNumber__0 : Py.Proto :=
  { obj := Rfc2985.CMSSingleAttribute.call }

/-- rfc2985.py:435 `sequenceNumber['attrType'] = ...` -/
def sequenceNumber__1 : Py.Proto :=
  Rfc2985.sequenceNumber__0.set "attrType" (.obj Rfc2985.pkcs_9_at_sequenceNumber)

/-- rfc2985.py:436 `sequenceNumber['attrValues'][0] = ...` -/
def sequenceNumber : Py.Proto :=
  Rfc2985.sequenceNumber__1.set "attrValues" (.elem0 Rfc2985.SequenceNumber.call)

/-- rfc2985.py:441 alias of `rfc5652.id_countersignature` -/
def pkcs_9_at_counterSignature : Py.Obj :=
  Rfc5652.id_countersignature

/-- rfc2985.py:443 -/
def counterSignature__0 : Py.Proto :=
  { obj := Rfc2985.CMSAttribute.call }

/-- rfc2985.py:444 `counterSignature['attrType'] = ...` -/
def counterSignature__1 : Py.Proto :=
  Rfc2985.counterSignature__0.set "attrType" (.obj Rfc2985.pkcs_9_at_counterSignature)

/-- rfc2985.py:445 `counterSignature['attrValues'][0] = ...` -/
def counterSignature : Py.Proto :=
  Rfc2985.counterSignature__1.set "attrValues" (.elem0 Rfc2985.Countersignature.call)

/-- rfc2985.py:450 -/
def pkcs_9_at_challengePassword : Py.Obj :=
  (Rfc2985._OID [.oid Rfc2985.pkcs_9, .num 7])

/-- rfc2985.py:452 -/
def challengePassword__0 : Py.Proto :=
  { obj := Rfc2985.SingleAttribute.call }

/-- rfc2985.py:453 `challengePassword['type'] = ...` -/
def challengePassword__1 : Py.Proto :=
  Rfc2985.challengePassword__0.set "type" (.obj Rfc2985.pkcs_9_at_challengePassword)

/-- rfc2985.py:454 `challengePassword['values'][0] = ...` -/
def challengePassword : Py.Proto :=
  Rfc2985.challengePassword__1.set "values" (.elem0 Rfc2985.DirectoryString.call)

/-- rfc2985.py:459-460 `class ExtensionRequest(Extensions)` -/
def ExtensionRequest : Py.Obj :=
  Rfc2985.Extensions

/-- rfc2985.py:463 -/
def pkcs_9_at_extensionRequest : Py.Obj :=
  (Rfc2985._OID [.oid Rfc2985.pkcs_9, .num 14])

/-- rfc2985.py:465 -/
def extensionRequest__0 : Py.Proto :=
  { obj := Rfc2985.SingleAttribute.call }

/-- rfc2985.py:466 `extensionRequest['type'] = ...` -/
def extensionRequest__1 : Py.Proto :=
  Rfc2985.extensionRequest__0.set "type" (.obj Rfc2985.pkcs_9_at_extensionRequest)

/-- rfc2985.py:467 `extensionRequest['values'][0] = ...` -/
def extensionRequest : Py.Proto :=
  Rfc2985.extensionRequest__1.set "values" (.elem0 Rfc2985.ExtensionRequest.call)

/-- rfc2985.py:472-473 `class AttributeSet(univ.SetOf)` -/
def AttributeSet__0 : Py.Obj :=
  Py.univ.SetOf

/-- rfc2985.py:475 `AttributeSet.componentType = ...` -/
def AttributeSet : Py.Obj :=
  Rfc2985.AttributeSet__0.setComponentTypeOf Rfc2985.Attribute.call

/-- rfc2985.py:478 -/
def pkcs_9_at_extendedCertificateAttributes : Py.Obj :=
  (Rfc2985._OID [.oid Rfc2985.pkcs_9, .num 9])

/-- rfc2985.py:480 -/
def extendedCertificateAttributes__0 : Py.Proto :=
  { obj := Rfc2985.SingleAttribute.call }

/-- rfc2985.py:481 `extendedCertificateAttributes['type'] = ...` -/
def extendedCertificateAttributes__1 : Py.Proto :=
  Rfc2985.extendedCertificateAttributes__0.set "type" (.obj Rfc2985.pkcs_9_at_extendedCertificateAttributes)

/-- rfc2985.py:482 `extendedCertificateAttributes['values'][0] = ...` -/
def extendedCertificateAttributes : Py.Proto :=
  Rfc2985.extendedCertificateAttributes__1.set "values" (.elem0 Rfc2985.AttributeSet.call)

/-- rfc2985.py:487-488 `class FriendlyName(char.BMPString)` -/
def FriendlyName__0 : Py.Obj :=
  Py.char.BMPString

/-- rfc2985.py:490 `FriendlyName.subtypeSpec = ...` -/
def FriendlyName : Py.Obj :=
  Rfc2985.FriendlyName__0.setSubtypeSpec (Py.ValueSizeConstraint (.fin 1) Rfc2985.pkcs_9_ub_friendlyName.bound)

/-- rfc2985.py:493 -/
def pkcs_9_at_friendlyName : Py.Obj :=
  (Rfc2985._OID [.oid Rfc2985.pkcs_9, .num 20])

/-- rfc2985.py:495 -/
def friendlyName__0 : Py.Proto :=
  { obj := Rfc2985.SingleAttribute.call }

/-- rfc2985.py:496 `friendlyName['type'] = ...` -/
def friendlyName__1 : Py.Proto :=
  Rfc2985.friendlyName__0.set "type" (.obj Rfc2985.pkcs_9_at_friendlyName)

/-- rfc2985.py:497 `friendlyName['values'][0] = ...` -/
def friendlyName : Py.Proto :=
  Rfc2985.friendlyName__1.set "values" (.elem0 Rfc2985.FriendlyName.call)

/-- rfc2985.py:502 -/
def pkcs_9_at_localKeyId : Py.Obj :=
  (Rfc2985._OID [.oid Rfc2985.pkcs_9, .num 21])

/-- rfc2985.py:504 -/
def localKeyId__0 : Py.Proto :=
  { obj := Rfc2985.SingleAttribute.call }

/-- rfc2985.py:505 `localKeyId['type'] = ...` -/
def localKeyId__1 : Py.Proto :=
  Rfc2985.localKeyId__0.set "type" (.obj Rfc2985.pkcs_9_at_localKeyId)

/-- rfc2985.py:506 `localKeyId['values'][0] = ...` -/
def localKeyId : Py.Proto :=
  Rfc2985.localKeyId__1.set "values" (.elem0 Py.univ.OctetString.call)

/-- rfc2985.py:511 -/
def pkcs_9_at_signingDescription : Py.Obj :=
  (Rfc2985._OID [.oid Rfc2985.pkcs_9, .num 13])

/-- rfc2985.py:513 -/
def signingDescription__0 : Py.Proto :=
  { obj := Rfc2985.CMSSingleAttribute.call }

/-- rfc2985.py:514 `signingDescription['attrType'] = ...` -/
def signingDescription__1 : Py.Proto :=
  Rfc2985.signingDescription__0.set "attrType" (.obj Rfc2985.pkcs_9_at_signingDescription)

/-- rfc2985.py:515 `signingDescription['attrValues'][0] = ...` -/
def signingDescription : Py.Proto :=
  Rfc2985.signingDescription__1.set "attrValues" (.elem0 Rfc2985.DirectoryString.call)

/-- rfc2985.py:520-521 `class SMIMECapability(AlgorithmIdentifier)` -/
def SMIMECapability : Py.Obj :=
  Rfc2985.AlgorithmIdentifier

/-- rfc2985.py:524-525 `class SMIMECapabilities(univ.SequenceOf)` -/
def SMIMECapabilities__0 : Py.Obj :=
  Py.univ.SequenceOf

/-- rfc2985.py:527 `SMIMECapabilities.componentType = ...` -/
def SMIMECapabilities : Py.Obj :=
  Rfc2985.SMIMECapabilities__0.setComponentTypeOf Rfc2985.SMIMECapability.call

/-- rfc2985.py:530 -/
def pkcs_9_at_smimeCapabilities : Py.Obj :=
  (Rfc2985._OID [.oid Rfc2985.pkcs_9, .num 15])

/-- rfc2985.py:532 -/
def smimeCapabilities__0 : Py.Proto :=
  { obj := Rfc2985.CMSSingleAttribute.call }

/-- rfc2985.py:533 `smimeCapabilities['attrType'] = ...` -/
def smimeCapabilities__1 : Py.Proto :=
  Rfc2985.smimeCapabilities__0.set "attrType" (.obj Rfc2985.pkcs_9_at_smimeCapabilities)

/-- rfc2985.py:534 `smimeCapabilities['attrValues'][0] = ...` -/
def smimeCapabilities : Py.Proto :=
  Rfc2985.smimeCapabilities__1.set "attrValues" (.elem0 Rfc2985.SMIMECapabilities.call)

/-- rfc2985.py:539-561 -/
def _certificateAttributesMapUpdate : Py.Entries :=
  [(Rfc2985.pkcs_9_at_pkcs7PDU.value, Rfc2985.ContentInfo.call.ty),
    (Rfc2985.pkcs_9_at_userPKCS12.value, Rfc2985.PFX.call.ty),
    (Rfc2985.pkcs_9_at_encryptedPrivateKeyInfo.value, Rfc2985.EncryptedPrivateKeyInfo.call.ty),
    (Rfc2985.pkcs_9_at_emailAddress.value, Rfc2985.EmailAddress.call.ty),
    (Rfc2985.pkcs_9_at_unstructuredName.value, Rfc2985.PKCS9String.call.ty),
    (Rfc2985.pkcs_9_at_unstructuredAddress.value, Rfc2985.DirectoryString.call.ty),
    (Rfc2985.pkcs_9_at_dateOfBirth.value, Py.useful.GeneralizedTime.call.ty),
    (Rfc2985.pkcs_9_at_placeOfBirth.value, Rfc2985.DirectoryString.call.ty),
    (Rfc2985.pkcs_9_at_gender.value, Rfc2985.GenderString.call.ty),
    (Rfc2985.pkcs_9_at_countryOfCitizenship.value, Rfc2985.X520countryName.call.ty),
    (Rfc2985.pkcs_9_at_countryOfResidence.value, Rfc2985.X520countryName.call.ty),
    (Rfc2985.id_at_pseudonym.value, Rfc2985.DirectoryString.call.ty),
    (Rfc2985.id_at_serialNumber.value, Rfc2985.X520SerialNumber.call.ty),
    (Rfc2985.pkcs_9_at_challengePassword.value, Rfc2985.DirectoryString.call.ty),
    (Rfc2985.pkcs_9_at_extensionRequest.value, Rfc2985.ExtensionRequest.call.ty),
    (Rfc2985.pkcs_9_at_extendedCertificateAttributes.value, Rfc2985.AttributeSet.call.ty)]

/-- rfc2985.py:573-586 -/
def _cmsAttributesMapUpdate : Py.Entries :=
  [(Rfc2985.pkcs_9_at_contentType.value, Rfc2985.ContentType.call.ty),
    (Rfc2985.pkcs_9_at_messageDigest.value, Rfc2985.MessageDigest.call.ty),
    (Rfc2985.pkcs_9_at_signingTime.value, Rfc2985.SigningTime.call.ty),
    (Rfc2985.pkcs_9_at_randomNonce.value, Rfc2985.RandomNonce.call.ty),
    (Rfc2985.pkcs_9_at_sequenceNumber.value, Rfc2985.SequenceNumber.call.ty),
    (Rfc2985.pkcs_9_at_counterSignature.value, Rfc2985.Countersignature.call.ty),
    (Rfc2985.pkcs_9_at_friendlyName.value, Rfc2985.FriendlyName.call.ty),
    (Rfc2985.pkcs_9_at_localKeyId.value, Py.univ.OctetString.call.ty),
    (Rfc2985.pkcs_9_at_signingDescription.value, Rfc2985.DirectoryString.call.ty)]

/-- Modules of this package imported by rfc2985.py, in textual order. -/
def imports : List Py.Ident :=
  [(Py.mod 23 "rfc7292"), (Py.mod 22 "rfc5958"), (Py.mod 16 "rfc5652"), (Py.mod 15 "rfc5280")]

/-- Dictionary operations executed when rfc2985.py is imported, in program order. -/
def effects : List Py.Effect :=
  [.create (Py.map 35 "rfc2985._certificateAttributesMapUpdate") Rfc2985._certificateAttributesMapUpdate /- rfc2985.py:539-561 -/,
   .update (Py.map 4 "rfc5280.certificateAttributesMap") Rfc2985._certificateAttributesMapUpdate /- rfc2985.py:563 -/,
   .create (Py.map 36 "rfc2985._cmsAttributesMapUpdate") Rfc2985._cmsAttributesMapUpdate /- rfc2985.py:573-586 -/,
   .update (Py.map 8 "rfc5652.cmsAttributesMap") Rfc2985._cmsAttributesMapUpdate /- rfc2985.py:588 -/]

/-- ASN.1 types rfc2985.py binds at module level (final version of each name), plus nested classes. -/
def classes : List (String × Py.Obj) :=
  [("rfc2985.AlgorithmIdentifier", Rfc2985.AlgorithmIdentifier),
   ("rfc2985.Attribute", Rfc2985.Attribute),
   ("rfc2985.EmailAddress", Rfc2985.EmailAddress),
   ("rfc2985.Extensions", Rfc2985.Extensions),
   ("rfc2985.Time", Rfc2985.Time),
   ("rfc2985.X520countryName", Rfc2985.X520countryName),
   ("rfc2985.X520SerialNumber", Rfc2985.X520SerialNumber),
   ("rfc2985.ContentInfo", Rfc2985.ContentInfo),
   ("rfc2985.ContentType", Rfc2985.ContentType),
   ("rfc2985.Countersignature", Rfc2985.Countersignature),
   ("rfc2985.MessageDigest", Rfc2985.MessageDigest),
   ("rfc2985.SignerInfo", Rfc2985.SignerInfo),
   ("rfc2985.SigningTime", Rfc2985.SigningTime),
   ("rfc2985.EncryptedPrivateKeyInfo", Rfc2985.EncryptedPrivateKeyInfo),
   ("rfc2985.PFX", Rfc2985.PFX),
   ("rfc2985.AttributeType", Rfc2985.AttributeType),
   ("rfc2985.AttributeValue", Rfc2985.AttributeValue),
   ("rfc2985.AttributeValues", Rfc2985.AttributeValues),
   ("rfc2985.SingleAttributeValues", Rfc2985.SingleAttributeValues),
   ("rfc2985.SingleAttribute", Rfc2985.SingleAttribute),
   ("rfc2985.CMSAttribute", Rfc2985.CMSAttribute),
   ("rfc2985.CMSSingleAttribute", Rfc2985.CMSSingleAttribute),
   ("rfc2985.DirectoryString", Rfc2985.DirectoryString),
   ("rfc2985.PKCS9String", Rfc2985.PKCS9String),
   ("rfc2985.GenderString", Rfc2985.GenderString),
   ("rfc2985.RandomNonce", Rfc2985.RandomNonce),
   ("rfc2985.SequenceNumber", Rfc2985.SequenceNumber),
   ("rfc2985.ExtensionRequest", Rfc2985.ExtensionRequest),
   ("rfc2985.AttributeSet", Rfc2985.AttributeSet),
   ("rfc2985.FriendlyName", Rfc2985.FriendlyName),
   ("rfc2985.SMIMECapability", Rfc2985.SMIMECapability),
   ("rfc2985.SMIMECapabilities", Rfc2985.SMIMECapabilities)]

/-- pyasn1 instances rfc2985.py binds at module level. -/
def objects : List (String × Py.Obj) :=
  [("rfc2985.pkcs_9_ub_pkcs9String", Rfc2985.pkcs_9_ub_pkcs9String),
   ("rfc2985.pkcs_9_ub_challengePassword", Rfc2985.pkcs_9_ub_challengePassword),
   ("rfc2985.pkcs_9_ub_emailAddress", Rfc2985.pkcs_9_ub_emailAddress),
   ("rfc2985.pkcs_9_ub_friendlyName", Rfc2985.pkcs_9_ub_friendlyName),
   ("rfc2985.pkcs_9_ub_match", Rfc2985.pkcs_9_ub_match),
   ("rfc2985.pkcs_9_ub_signingDescription", Rfc2985.pkcs_9_ub_signingDescription),
   ("rfc2985.pkcs_9_ub_unstructuredAddress", Rfc2985.pkcs_9_ub_unstructuredAddress),
   ("rfc2985.pkcs_9_ub_unstructuredName", Rfc2985.pkcs_9_ub_unstructuredName),
   ("rfc2985.ub_name", Rfc2985.ub_name),
   ("rfc2985.pkcs_9_ub_placeOfBirth", Rfc2985.pkcs_9_ub_placeOfBirth),
   ("rfc2985.pkcs_9_ub_pseudonym", Rfc2985.pkcs_9_ub_pseudonym),
   ("rfc2985.ietf_at", Rfc2985.ietf_at),
   ("rfc2985.id_at", Rfc2985.id_at),
   ("rfc2985.pkcs_9", Rfc2985.pkcs_9),
   ("rfc2985.pkcs_9_mo", Rfc2985.pkcs_9_mo),
   ("rfc2985.smime", Rfc2985.smime),
   ("rfc2985.certTypes", Rfc2985.certTypes),
   ("rfc2985.crlTypes", Rfc2985.crlTypes),
   ("rfc2985.pkcs_9_oc", Rfc2985.pkcs_9_oc),
   ("rfc2985.pkcs_9_at", Rfc2985.pkcs_9_at),
   ("rfc2985.pkcs_9_sx", Rfc2985.pkcs_9_sx),
   ("rfc2985.pkcs_9_mr", Rfc2985.pkcs_9_mr),
   ("rfc2985.pkcs_9_sx_pkcs9String", Rfc2985.pkcs_9_sx_pkcs9String),
   ("rfc2985.pkcs_9_sx_signingTime", Rfc2985.pkcs_9_sx_signingTime),
   ("rfc2985.pkcs_9_oc_pkcsEntity", Rfc2985.pkcs_9_oc_pkcsEntity),
   ("rfc2985.pkcs_9_oc_naturalPerson", Rfc2985.pkcs_9_oc_naturalPerson),
   ("rfc2985.pkcs_9_mr_caseIgnoreMatch", Rfc2985.pkcs_9_mr_caseIgnoreMatch),
   ("rfc2985.pkcs_9_mr_signingTimeMatch", Rfc2985.pkcs_9_mr_signingTimeMatch),
   ("rfc2985.pkcs_9_at_pkcs7PDU", Rfc2985.pkcs_9_at_pkcs7PDU),
   ("rfc2985.pkcs_9_at_userPKCS12", Rfc2985.pkcs_9_at_userPKCS12),
   ("rfc2985.pkcs_9_at_pkcs15Token", Rfc2985.pkcs_9_at_pkcs15Token),
   ("rfc2985.pkcs_9_at_encryptedPrivateKeyInfo", Rfc2985.pkcs_9_at_encryptedPrivateKeyInfo),
   ("rfc2985.pkcs_9_at_emailAddress", Rfc2985.pkcs_9_at_emailAddress),
   ("rfc2985.pkcs_9_at_unstructuredName", Rfc2985.pkcs_9_at_unstructuredName),
   ("rfc2985.pkcs_9_at_unstructuredAddress", Rfc2985.pkcs_9_at_unstructuredAddress),
   ("rfc2985.pkcs_9_at_dateOfBirth", Rfc2985.pkcs_9_at_dateOfBirth),
   ("rfc2985.pkcs_9_at_placeOfBirth", Rfc2985.pkcs_9_at_placeOfBirth),
   ("rfc2985.pkcs_9_at_gender", Rfc2985.pkcs_9_at_gender),
   ("rfc2985.pkcs_9_at_countryOfCitizenship", Rfc2985.pkcs_9_at_countryOfCitizenship),
   ("rfc2985.pkcs_9_at_countryOfResidence", Rfc2985.pkcs_9_at_countryOfResidence),
   ("rfc2985.id_at_pseudonym", Rfc2985.id_at_pseudonym),
   ("rfc2985.id_at_serialNumber", Rfc2985.id_at_serialNumber),
   ("rfc2985.pkcs_9_at_contentType", Rfc2985.pkcs_9_at_contentType),
   ("rfc2985.pkcs_9_at_messageDigest", Rfc2985.pkcs_9_at_messageDigest),
   ("rfc2985.pkcs_9_at_signingTime", Rfc2985.pkcs_9_at_signingTime),
   ("rfc2985.pkcs_9_at_randomNonce", Rfc2985.pkcs_9_at_randomNonce),
   ("rfc2985.pkcs_9_at_sequenceNumber", Rfc2985.pkcs_9_at_sequenceNumber),
   ("rfc2985.pkcs_9_at_counterSignature", Rfc2985.pkcs_9_at_counterSignature),
   ("rfc2985.pkcs_9_at_challengePassword", Rfc2985.pkcs_9_at_challengePassword),
   ("rfc2985.pkcs_9_at_extensionRequest", Rfc2985.pkcs_9_at_extensionRequest),
   ("rfc2985.pkcs_9_at_extendedCertificateAttributes", Rfc2985.pkcs_9_at_extendedCertificateAttributes),
   ("rfc2985.pkcs_9_at_friendlyName", Rfc2985.pkcs_9_at_friendlyName),
   ("rfc2985.pkcs_9_at_localKeyId", Rfc2985.pkcs_9_at_localKeyId),
   ("rfc2985.pkcs_9_at_signingDescription", Rfc2985.pkcs_9_at_signingDescription),
   ("rfc2985.pkcs_9_at_smimeCapabilities", Rfc2985.pkcs_9_at_smimeCapabilities)]

/-- pyasn1 instances rfc2985.py fills in by item assignment. -/
def protos : List (String × Py.Proto) :=
  [("rfc2985.pKCS7PDU", Rfc2985.pKCS7PDU),
   ("rfc2985.userPKCS12", Rfc2985.userPKCS12),
   ("rfc2985.encryptedPrivateKeyInfo", Rfc2985.encryptedPrivateKeyInfo),
   ("rfc2985.emailAddress", Rfc2985.emailAddress),
   ("rfc2985.unstructuredName", Rfc2985.unstructuredName),
   ("rfc2985.unstructuredAddress", Rfc2985.unstructuredAddress),
   ("rfc2985.dateOfBirth", Rfc2985.dateOfBirth),
   ("rfc2985.placeOfBirth", Rfc2985.placeOfBirth),
   ("rfc2985.gender", Rfc2985.gender),
   ("rfc2985.countryOfCitizenship", Rfc2985.countryOfCitizenship),
   ("rfc2985.countryOfResidence", Rfc2985.countryOfResidence),
   ("rfc2985.pseudonym", Rfc2985.pseudonym),
   ("rfc2985.serialNumber", Rfc2985.serialNumber),
   ("rfc2985.contentType", Rfc2985.contentType),
   ("rfc2985.messageDigest", Rfc2985.messageDigest),
   ("rfc2985.signingTime", Rfc2985.signingTime),
   ("rfc2985.randomNonce", Rfc2985.randomNonce),
   ("rfc2985.sequenceNumber", Rfc2985.sequenceNumber),
   ("rfc2985.counterSignature", Rfc2985.counterSignature),
   ("rfc2985.challengePassword", Rfc2985.challengePassword),
   ("rfc2985.extensionRequest", Rfc2985.extensionRequest),
   ("rfc2985.extendedCertificateAttributes", Rfc2985.extendedCertificateAttributes),
   ("rfc2985.friendlyName", Rfc2985.friendlyName),
   ("rfc2985.localKeyId", Rfc2985.localKeyId),
   ("rfc2985.signingDescription", Rfc2985.signingDescription),
   ("rfc2985.smimeCapabilities", Rfc2985.smimeCapabilities)]

/-- Every place of rfc2985.py that instantiates a class of the package: where, the class as it is
at that point, and the class as it is when the import has finished. -/
def snapshots : List Py.Snapshot :=
  [⟨"rfc2985.py:104", Rfc2985.AttributeValue, Rfc2985.AttributeValue⟩,
   ⟨"rfc2985.py:110", Rfc2985.AttributeValue, Rfc2985.AttributeValue⟩,
   ⟨"rfc2985.py:117", Rfc2985.AttributeType, Rfc2985.AttributeType⟩,
   ⟨"rfc2985.py:119", Rfc2985.AttributeValues, Rfc2985.AttributeValues⟩,
   ⟨"rfc2985.py:135", Rfc2985.AttributeType, Rfc2985.AttributeType⟩,
   ⟨"rfc2985.py:137", Rfc2985.AttributeValues, Rfc2985.AttributeValues⟩,
   ⟨"rfc2985.py:171", Rfc2985.DirectoryString, Rfc2985.DirectoryString⟩,
   ⟨"rfc2985.py:251", Rfc2985.Attribute, Rfc2985.Attribute⟩,
   ⟨"rfc2985.py:253", Rfc2985.ContentInfo, Rfc2985.ContentInfo⟩,
   ⟨"rfc2985.py:260", Rfc2985.Attribute, Rfc2985.Attribute⟩,
   ⟨"rfc2985.py:262", Rfc2985.PFX, Rfc2985.PFX⟩,
   ⟨"rfc2985.py:280", Rfc2985.Attribute, Rfc2985.Attribute⟩,
   ⟨"rfc2985.py:282", Rfc2985.EncryptedPrivateKeyInfo, Rfc2985.EncryptedPrivateKeyInfo⟩,
   ⟨"rfc2985.py:289", Rfc2985.Attribute, Rfc2985.Attribute⟩,
   ⟨"rfc2985.py:291", Rfc2985.EmailAddress, Rfc2985.EmailAddress⟩,
   ⟨"rfc2985.py:298", Rfc2985.Attribute, Rfc2985.Attribute⟩,
   ⟨"rfc2985.py:300", Rfc2985.PKCS9String, Rfc2985.PKCS9String⟩,
   ⟨"rfc2985.py:307", Rfc2985.Attribute, Rfc2985.Attribute⟩,
   ⟨"rfc2985.py:309", Rfc2985.DirectoryString, Rfc2985.DirectoryString⟩,
   ⟨"rfc2985.py:316", Rfc2985.SingleAttribute, Rfc2985.SingleAttribute⟩,
   ⟨"rfc2985.py:325", Rfc2985.SingleAttribute, Rfc2985.SingleAttribute⟩,
   ⟨"rfc2985.py:327", Rfc2985.DirectoryString, Rfc2985.DirectoryString⟩,
   ⟨"rfc2985.py:341", Rfc2985.SingleAttribute, Rfc2985.SingleAttribute⟩,
   ⟨"rfc2985.py:343", Rfc2985.GenderString, Rfc2985.GenderString⟩,
   ⟨"rfc2985.py:350", Rfc2985.Attribute, Rfc2985.Attribute⟩,
   ⟨"rfc2985.py:352", Rfc2985.X520countryName, Rfc2985.X520countryName⟩,
   ⟨"rfc2985.py:359", Rfc2985.Attribute, Rfc2985.Attribute⟩,
   ⟨"rfc2985.py:361", Rfc2985.X520countryName, Rfc2985.X520countryName⟩,
   ⟨"rfc2985.py:368", Rfc2985.Attribute, Rfc2985.Attribute⟩,
   ⟨"rfc2985.py:370", Rfc2985.DirectoryString, Rfc2985.DirectoryString⟩,
   ⟨"rfc2985.py:377", Rfc2985.Attribute, Rfc2985.Attribute⟩,
   ⟨"rfc2985.py:379", Rfc2985.X520SerialNumber, Rfc2985.X520SerialNumber⟩,
   ⟨"rfc2985.py:386", Rfc2985.CMSSingleAttribute, Rfc2985.CMSSingleAttribute⟩,
   ⟨"rfc2985.py:388", Rfc2985.ContentType, Rfc2985.ContentType⟩,
   ⟨"rfc2985.py:395", Rfc2985.CMSSingleAttribute, Rfc2985.CMSSingleAttribute⟩,
   ⟨"rfc2985.py:397", Rfc2985.MessageDigest, Rfc2985.MessageDigest⟩,
   ⟨"rfc2985.py:404", Rfc2985.CMSSingleAttribute, Rfc2985.CMSSingleAttribute⟩,
   ⟨"rfc2985.py:406", Rfc2985.SigningTime, Rfc2985.SigningTime⟩,
   ⟨"rfc2985.py:419", Rfc2985.CMSSingleAttribute, Rfc2985.CMSSingleAttribute⟩,
   ⟨"rfc2985.py:421", Rfc2985.RandomNonce, Rfc2985.RandomNonce⟩,
   ⟨"rfc2985.py:434", Rfc2985.CMSSingleAttribute, Rfc2985.CMSSingleAttribute⟩,
   ⟨"rfc2985.py:436", Rfc2985.SequenceNumber, Rfc2985.SequenceNumber⟩,
   ⟨"rfc2985.py:443", Rfc2985.CMSAttribute, Rfc2985.CMSAttribute⟩,
   ⟨"rfc2985.py:445", Rfc2985.Countersignature, Rfc2985.Countersignature⟩,
   ⟨"rfc2985.py:452", Rfc2985.SingleAttribute, Rfc2985.SingleAttribute⟩,
   ⟨"rfc2985.py:454", Rfc2985.DirectoryString, Rfc2985.DirectoryString⟩,
   ⟨"rfc2985.py:465", Rfc2985.SingleAttribute, Rfc2985.SingleAttribute⟩,
   ⟨"rfc2985.py:467", Rfc2985.ExtensionRequest, Rfc2985.ExtensionRequest⟩,
   ⟨"rfc2985.py:475", Rfc2985.Attribute, Rfc2985.Attribute⟩,
   ⟨"rfc2985.py:480", Rfc2985.SingleAttribute, Rfc2985.SingleAttribute⟩,
   ⟨"rfc2985.py:482", Rfc2985.AttributeSet, Rfc2985.AttributeSet⟩,
   ⟨"rfc2985.py:495", Rfc2985.SingleAttribute, Rfc2985.SingleAttribute⟩,
   ⟨"rfc2985.py:497", Rfc2985.FriendlyName, Rfc2985.FriendlyName⟩,
   ⟨"rfc2985.py:504", Rfc2985.SingleAttribute, Rfc2985.SingleAttribute⟩,
   ⟨"rfc2985.py:513", Rfc2985.CMSSingleAttribute, Rfc2985.CMSSingleAttribute⟩,
   ⟨"rfc2985.py:515", Rfc2985.DirectoryString, Rfc2985.DirectoryString⟩,
   ⟨"rfc2985.py:527", Rfc2985.SMIMECapability, Rfc2985.SMIMECapability⟩,
   ⟨"rfc2985.py:532", Rfc2985.CMSSingleAttribute, Rfc2985.CMSSingleAttribute⟩,
   ⟨"rfc2985.py:534", Rfc2985.SMIMECapabilities, Rfc2985.SMIMECapabilities⟩,
   ⟨"rfc2985.py:541", Rfc2985.ContentInfo, Rfc2985.ContentInfo⟩,
   ⟨"rfc2985.py:542", Rfc2985.PFX, Rfc2985.PFX⟩,
   ⟨"rfc2985.py:545", Rfc2985.EncryptedPrivateKeyInfo, Rfc2985.EncryptedPrivateKeyInfo⟩,
   ⟨"rfc2985.py:547", Rfc2985.EmailAddress, Rfc2985.EmailAddress⟩,
   ⟨"rfc2985.py:548", Rfc2985.PKCS9String, Rfc2985.PKCS9String⟩,
   ⟨"rfc2985.py:549", Rfc2985.DirectoryString, Rfc2985.DirectoryString⟩,
   ⟨"rfc2985.py:551", Rfc2985.DirectoryString, Rfc2985.DirectoryString⟩,
   ⟨"rfc2985.py:552", Rfc2985.GenderString, Rfc2985.GenderString⟩,
   ⟨"rfc2985.py:553", Rfc2985.X520countryName, Rfc2985.X520countryName⟩,
   ⟨"rfc2985.py:554", Rfc2985.X520countryName, Rfc2985.X520countryName⟩,
   ⟨"rfc2985.py:555", Rfc2985.DirectoryString, Rfc2985.DirectoryString⟩,
   ⟨"rfc2985.py:556", Rfc2985.X520SerialNumber, Rfc2985.X520SerialNumber⟩,
   ⟨"rfc2985.py:558", Rfc2985.DirectoryString, Rfc2985.DirectoryString⟩,
   ⟨"rfc2985.py:559", Rfc2985.ExtensionRequest, Rfc2985.ExtensionRequest⟩,
   ⟨"rfc2985.py:560", Rfc2985.AttributeSet, Rfc2985.AttributeSet⟩,
   ⟨"rfc2985.py:575", Rfc2985.ContentType, Rfc2985.ContentType⟩,
   ⟨"rfc2985.py:576", Rfc2985.MessageDigest, Rfc2985.MessageDigest⟩,
   ⟨"rfc2985.py:577", Rfc2985.SigningTime, Rfc2985.SigningTime⟩,
   ⟨"rfc2985.py:578", Rfc2985.RandomNonce, Rfc2985.RandomNonce⟩,
   ⟨"rfc2985.py:579", Rfc2985.SequenceNumber, Rfc2985.SequenceNumber⟩,
   ⟨"rfc2985.py:580", Rfc2985.Countersignature, Rfc2985.Countersignature⟩,
   ⟨"rfc2985.py:582", Rfc2985.FriendlyName, Rfc2985.FriendlyName⟩,
   ⟨"rfc2985.py:584", Rfc2985.DirectoryString, Rfc2985.DirectoryString⟩]

/-- Functions rfc2985.py defines. -/
def builders : List (String × (List Py.OidArg → Py.Obj)) :=
  [("rfc2985._OID", Rfc2985._OID)]

def asModule : Py.Module :=
  { id := (Py.mod 24 "rfc2985"), imports := imports, effects := effects, classes := classes, objects := objects, protos := protos, snapshots := snapshots, builders := builders }

end Rfc2985
end Verif
