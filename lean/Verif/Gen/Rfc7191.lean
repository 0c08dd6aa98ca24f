import Verif.Py.Obj
import Verif.Gen.Rfc5280
import Verif.Gen.Rfc5652

/-! Transcription of /repo/pyasn1_modules/rfc7191.py (generated by tools/gen.py). -/

namespace Verif
namespace Rfc7191

/-- rfc7191.py:24 -/
def MAX : Py.Bound :=
  .inf

/-- rfc7191.py:26 alias of `rfc5280.DistinguishedName` -/
def DistinguishedName : Py.Obj :=
  Rfc5280.DistinguishedName

/-- rfc7191.py:32-33 `class AttributeValue(univ.Any)` -/
def AttributeValue : Py.Obj :=
  Py.univ.Any

/-- rfc7191.py:36-37 `class AttributeValues(univ.SetOf)` -/
def AttributeValues__0 : Py.Obj :=
  Py.univ.SetOf

/-- rfc7191.py:39 `AttributeValues.componentType = ...` -/
def AttributeValues__1 : Py.Obj :=
  Rfc7191.AttributeValues__0.setComponentTypeOf Rfc7191.AttributeValue.call

/-- rfc7191.py:40 `AttributeValues.sizeSpec = ...` -/
def AttributeValues : Py.Obj :=
  Rfc7191.AttributeValues__1.setSizeSpec (Py.univ.Set.sizeSpec.add (Py.ValueSizeConstraint (.fin 1) (.fin 1)))

/-- rfc7191.py:43-44 `class SingleAttribute(univ.Sequence)` -/
def SingleAttribute__0 : Py.Obj :=
  Py.univ.Sequence

/-- rfc7191.py:46-51 `SingleAttribute.componentType = ...` -/
def SingleAttribute : Py.Obj :=
  Rfc7191.SingleAttribute__0.setComponentType (Py.NamedTypes [
    Py.NamedType "attrType" Py.univ.ObjectIdentifier.call,
    Py.NamedType "attrValues" Rfc7191.AttributeValues.call (openType := some (Py.OpenType "attrType" (Py.map 8 "rfc5652.cmsAttributesMap")))])

/-- rfc7191.py:56-57 `class SIREntityNameType(univ.ObjectIdentifier)` -/
def SIREntityNameType : Py.Obj :=
  Py.univ.ObjectIdentifier

/-- rfc7191.py:60-61 `class SIREntityNameValue(univ.Any)` -/
def SIREntityNameValue : Py.Obj :=
  Py.univ.Any

/-- rfc7191.py:64-65 `class SIREntityName(univ.Sequence)` -/
def SIREntityName__0 : Py.Obj :=
  Py.univ.Sequence

/-- rfc7191.py:67-71 `SIREntityName.componentType = ...` -/
def SIREntityName : Py.Obj :=
  Rfc7191.SIREntityName__0.setComponentType (Py.NamedTypes [
    Py.NamedType "sirenType" Rfc7191.SIREntityNameType.call,
    Py.NamedType "sirenValue" Py.univ.OctetString.call])

/-- rfc7191.py:74-75 `class SIREntityNames(univ.SequenceOf)` -/
def SIREntityNames__0 : Py.Obj :=
  Py.univ.SequenceOf

/-- rfc7191.py:77 `SIREntityNames.componentType = ...` -/
def SIREntityNames__1 : Py.Obj :=
  Rfc7191.SIREntityNames__0.setComponentTypeOf Rfc7191.SIREntityName.call

/-- rfc7191.py:78 `SIREntityNames.sizeSpec = ...` -/
def SIREntityNames : Py.Obj :=
  Rfc7191.SIREntityNames__1.setSizeSpec (Py.ValueSizeConstraint (.fin 1) Rfc7191.MAX)

/-- rfc7191.py:81 -/
def id_dn : Py.Obj :=
  (Py.univ.ObjectIdentifier.call.callArcs [2, 16, 840, 1, 101, 2, 1, 16, 0])

/-- rfc7191.py:84-87 `class siren_dn(SIREntityName)` (`__init__` presets field sirenType; not part of the type) -/
def siren_dn : Py.Obj :=
  Rfc7191.SIREntityName

/-- rfc7191.py:92-93 `class EnumeratedErrorCode(univ.Enumerated)` -/
def EnumeratedErrorCode__0 : Py.Obj :=
  Py.univ.Enumerated

/-- rfc7191.py:96-154 `EnumeratedErrorCode.namedValues = ...` -/
def EnumeratedErrorCode : Py.Obj :=
  Rfc7191.EnumeratedErrorCode__0.setNamedValues (Py.NamedValues [("decodeFailure", 1), ("badContentInfo", 2), ("badSignedData", 3), ("badEncapContent", 4), ("badCertificate", 5), ("badSignerInfo", 6), ("badSignedAttrs", 7), ("badUnsignedAttrs", 8), ("missingContent", 9), ("noTrustAnchor", 10), ("notAuthorized", 11), ("badDigestAlgorithm", 12), ("badSignatureAlgorithm", 13), ("unsupportedKeySize", 14), ("unsupportedParameters", 15), ("signatureFailure", 16), ("insufficientMemory", 17), ("incorrectTarget", 23), ("missingSignature", 29), ("resourcesBusy", 30), ("versionNumberMismatch", 31), ("revokedCertificate", 33), ("ambiguousDecrypt", 60), ("noDecryptKey", 61), ("badEncryptedData", 62), ("badEnvelopedData", 63), ("badAuthenticatedData", 64), ("badAuthEnvelopedData", 65), ("badKeyAgreeRecipientInfo", 66), ("badKEKRecipientInfo", 67), ("badEncryptContent", 68), ("badEncryptAlgorithm", 69), ("missingCiphertext", 70), ("decryptFailure", 71), ("badMACAlgorithm", 72), ("badAuthAttrs", 73), ("badUnauthAttrs", 74), ("invalidMAC", 75), ("mismatchedDigestAlg", 76), ("missingCertificate", 77), ("tooManySigners", 78), ("missingSignedAttributes", 79), ("derEncodingNotUsed", 80), ("missingContentHints", 81), ("invalidAttributeLocation", 82), ("badMessageDigest", 83), ("badKeyPackage", 84), ("badAttributes", 85), ("attributeComparisonFailure", 86), ("unsupportedSymmetricKeyPackage", 87), ("unsupportedAsymmetricKeyPackage", 88), ("constraintViolation", 89), ("ambiguousDefaultValue", 90), ("noMatchingRecipientInfo", 91), ("unsupportedKeyWrapAlgorithm", 92), ("badKeyTransRecipientInfo", 93), ("other", 127)])

/-- rfc7191.py:157-158 `class ErrorCodeChoice(univ.Choice)` -/
def ErrorCodeChoice__0 : Py.Obj :=
  Py.univ.Choice

/-- rfc7191.py:160-163 `ErrorCodeChoice.componentType = ...` -/
def ErrorCodeChoice : Py.Obj :=
  Rfc7191.ErrorCodeChoice__0.setComponentType (Py.NamedTypes [
    Py.NamedType "enum" Rfc7191.EnumeratedErrorCode.call,
    Py.NamedType "oid" Py.univ.ObjectIdentifier.call])

/-- rfc7191.py:166-167 `class KeyPkgID(univ.OctetString)` -/
def KeyPkgID : Py.Obj :=
  Py.univ.OctetString

/-- rfc7191.py:170-171 `class KeyPkgIdentifier(univ.Choice)` -/
def KeyPkgIdentifier__0 : Py.Obj :=
  Py.univ.Choice

/-- rfc7191.py:173-176 `KeyPkgIdentifier.componentType = ...` -/
def KeyPkgIdentifier : Py.Obj :=
  Rfc7191.KeyPkgIdentifier__0.setComponentType (Py.NamedTypes [
    Py.NamedType "pkgID" Rfc7191.KeyPkgID.call,
    Py.NamedType "attribute" Rfc7191.SingleAttribute.call])

/-- rfc7191.py:179-180 `class KeyPkgVersion(univ.Integer)` -/
def KeyPkgVersion__0 : Py.Obj :=
  Py.univ.Integer

/-- rfc7191.py:183-186 `KeyPkgVersion.namedValues = ...` -/
def KeyPkgVersion__1 : Py.Obj :=
  Rfc7191.KeyPkgVersion__0.setNamedValues (Py.NamedValues [("v1", 1), ("v2", 2)])

/-- rfc7191.py:188 `KeyPkgVersion.subtypeSpec = ...` -/
def KeyPkgVersion : Py.Obj :=
  Rfc7191.KeyPkgVersion__1.setSubtypeSpec (Py.ValueRangeConstraint (.fin 1) (.fin 65535))

/-- rfc7191.py:191 -/
def id_ct_KP_keyPackageError : Py.Obj :=
  (Py.univ.ObjectIdentifier.call.callArcs [2, 16, 840, 1, 101, 2, 1, 2, 78, 6])

/-- rfc7191.py:193-194 `class KeyPackageError(univ.Sequence)` -/
def KeyPackageError__0 : Py.Obj :=
  Py.univ.Sequence

/-- rfc7191.py:196-202 `KeyPackageError.componentType = ...` -/
def KeyPackageError : Py.Obj :=
  Rfc7191.KeyPackageError__0.setComponentType (Py.NamedTypes [
    Py.DefaultedNamedType "version" (Rfc7191.KeyPkgVersion.call.callStr "v2"),
    Py.OptionalNamedType "errorOf" (Rfc7191.KeyPkgIdentifier.call.implicitTag (Py.Tag .context true 0)),
    Py.NamedType "errorBy" Rfc7191.SIREntityName.call,
    Py.NamedType "errorCode" Rfc7191.ErrorCodeChoice.call])

/-- rfc7191.py:207 -/
def id_ct_KP_keyPackageReceipt : Py.Obj :=
  (Py.univ.ObjectIdentifier.call.callArcs [2, 16, 840, 1, 101, 2, 1, 2, 78, 3])

/-- rfc7191.py:209-210 `class KeyPackageReceipt(univ.Sequence)` -/
def KeyPackageReceipt__0 : Py.Obj :=
  Py.univ.Sequence

/-- rfc7191.py:212-216 `KeyPackageReceipt.componentType = ...` -/
def KeyPackageReceipt : Py.Obj :=
  Rfc7191.KeyPackageReceipt__0.setComponentType (Py.NamedTypes [
    Py.DefaultedNamedType "version" (Rfc7191.KeyPkgVersion.call.callStr "v2"),
    Py.NamedType "receiptOf" Rfc7191.KeyPkgIdentifier.call,
    Py.NamedType "receivedBy" Rfc7191.SIREntityName.call])

/-- rfc7191.py:221-222 `class KeyPkgReceiptReq(univ.Sequence)` -/
def KeyPkgReceiptReq__0 : Py.Obj :=
  Py.univ.Sequence

/-- rfc7191.py:224-229 `KeyPkgReceiptReq.componentType = ...` -/
def KeyPkgReceiptReq : Py.Obj :=
  Rfc7191.KeyPkgReceiptReq__0.setComponentType (Py.NamedTypes [
    Py.DefaultedNamedType "encryptReceipt" (Py.univ.Boolean.call.callInt 0),
    Py.OptionalNamedType "receiptsFrom" (Rfc7191.SIREntityNames.call.implicitTag (Py.Tag .context false 0)),
    Py.NamedType "receiptsTo" Rfc7191.SIREntityNames.call])

/-- rfc7191.py:232 -/
def id_aa_KP_keyPkgIdAndReceiptReq : Py.Obj :=
  (Py.univ.ObjectIdentifier.call.callArcs [2, 16, 840, 1, 101, 2, 1, 5, 65])

/-- rfc7191.py:234-235 `class KeyPkgIdentifierAndReceiptReq(univ.Sequence)` -/
def KeyPkgIdentifierAndReceiptReq__0 : Py.Obj :=
  Py.univ.Sequence

/-- rfc7191.py:237-240 `KeyPkgIdentifierAndReceiptReq.componentType = ...` -/
def KeyPkgIdentifierAndReceiptReq : Py.Obj :=
  Rfc7191.KeyPkgIdentifierAndReceiptReq__0.setComponentType (Py.NamedTypes [
    Py.NamedType "pkgID" Rfc7191.KeyPkgID.call,
    Py.OptionalNamedType "receiptReq" Rfc7191.KeyPkgReceiptReq.call])

/-- rfc7191.py:246-248 -/
def _cmsAttributesMapUpdate : Py.Entries :=
  [(Rfc7191.id_aa_KP_keyPkgIdAndReceiptReq.value, Rfc7191.KeyPkgIdentifierAndReceiptReq.call.ty)]

/-- rfc7191.py:256-259 -/
def _cmsContentTypesMapUpdate : Py.Entries :=
  [(Rfc7191.id_ct_KP_keyPackageError.value, Rfc7191.KeyPackageError.call.ty),
    (Rfc7191.id_ct_KP_keyPackageReceipt.value, Rfc7191.KeyPackageReceipt.call.ty)]

/-- Modules of this package imported by rfc7191.py, in textual order. -/
def imports : List Py.Ident :=
  [(Py.mod 15 "rfc5280"), (Py.mod 16 "rfc5652")]

/-- Dictionary operations executed when rfc7191.py is imported, in program order. -/
def effects : List Py.Effect :=
  [.create (Py.map 120 "rfc7191._cmsAttributesMapUpdate") Rfc7191._cmsAttributesMapUpdate /- rfc7191.py:246-248 -/,
   .update (Py.map 8 "rfc5652.cmsAttributesMap") Rfc7191._cmsAttributesMapUpdate /- rfc7191.py:250 -/,
   .create (Py.map 121 "rfc7191._cmsContentTypesMapUpdate") Rfc7191._cmsContentTypesMapUpdate /- rfc7191.py:256-259 -/,
   .update (Py.map 13 "rfc5652.cmsContentTypesMap") Rfc7191._cmsContentTypesMapUpdate /- rfc7191.py:261 -/]

/-- ASN.1 types rfc7191.py binds at module level (final version of each name), plus nested classes. -/
def classes : List (String × Py.Obj) :=
  [("rfc7191.DistinguishedName", Rfc7191.DistinguishedName),
   ("rfc7191.AttributeValue", Rfc7191.AttributeValue),
   ("rfc7191.AttributeValues", Rfc7191.AttributeValues),
   ("rfc7191.SingleAttribute", Rfc7191.SingleAttribute),
   ("rfc7191.SIREntityNameType", Rfc7191.SIREntityNameType),
   ("rfc7191.SIREntityNameValue", Rfc7191.SIREntityNameValue),
   ("rfc7191.SIREntityName", Rfc7191.SIREntityName),
   ("rfc7191.SIREntityNames", Rfc7191.SIREntityNames),
   ("rfc7191.siren_dn", Rfc7191.siren_dn),
   ("rfc7191.EnumeratedErrorCode", Rfc7191.EnumeratedErrorCode),
   ("rfc7191.ErrorCodeChoice", Rfc7191.ErrorCodeChoice),
   ("rfc7191.KeyPkgID", Rfc7191.KeyPkgID),
   ("rfc7191.KeyPkgIdentifier", Rfc7191.KeyPkgIdentifier),
   ("rfc7191.KeyPkgVersion", Rfc7191.KeyPkgVersion),
   ("rfc7191.KeyPackageError", Rfc7191.KeyPackageError),
   ("rfc7191.KeyPackageReceipt", Rfc7191.KeyPackageReceipt),
   ("rfc7191.KeyPkgReceiptReq", Rfc7191.KeyPkgReceiptReq),
   ("rfc7191.KeyPkgIdentifierAndReceiptReq", Rfc7191.KeyPkgIdentifierAndReceiptReq)]

/-- pyasn1 instances rfc7191.py binds at module level. -/
def objects : List (String × Py.Obj) :=
  [("rfc7191.id_dn", Rfc7191.id_dn),
   ("rfc7191.id_ct_KP_keyPackageError", Rfc7191.id_ct_KP_keyPackageError),
   ("rfc7191.id_ct_KP_keyPackageReceipt", Rfc7191.id_ct_KP_keyPackageReceipt),
   ("rfc7191.id_aa_KP_keyPkgIdAndReceiptReq", Rfc7191.id_aa_KP_keyPkgIdAndReceiptReq)]

/-- pyasn1 instances rfc7191.py fills in by item assignment. -/
def protos : List (String × Py.Proto) :=
  []

/-- Every place of rfc7191.py that instantiates a class of the package: where, the class as it is
at that point, and the class as it is when the import has finished. -/
def snapshots : List Py.Snapshot :=
  [⟨"rfc7191.py:39", Rfc7191.AttributeValue, Rfc7191.AttributeValue⟩,
   ⟨"rfc7191.py:48", Rfc7191.AttributeValues, Rfc7191.AttributeValues⟩,
   ⟨"rfc7191.py:68", Rfc7191.SIREntityNameType, Rfc7191.SIREntityNameType⟩,
   ⟨"rfc7191.py:77", Rfc7191.SIREntityName, Rfc7191.SIREntityName⟩,
   ⟨"rfc7191.py:161", Rfc7191.EnumeratedErrorCode, Rfc7191.EnumeratedErrorCode⟩,
   ⟨"rfc7191.py:174", Rfc7191.KeyPkgID, Rfc7191.KeyPkgID⟩,
   ⟨"rfc7191.py:175", Rfc7191.SingleAttribute, Rfc7191.SingleAttribute⟩,
   ⟨"rfc7191.py:197", Rfc7191.KeyPkgVersion, Rfc7191.KeyPkgVersion⟩,
   ⟨"rfc7191.py:198", Rfc7191.KeyPkgIdentifier, Rfc7191.KeyPkgIdentifier⟩,
   ⟨"rfc7191.py:200", Rfc7191.SIREntityName, Rfc7191.SIREntityName⟩,
   ⟨"rfc7191.py:201", Rfc7191.ErrorCodeChoice, Rfc7191.ErrorCodeChoice⟩,
   ⟨"rfc7191.py:213", Rfc7191.KeyPkgVersion, Rfc7191.KeyPkgVersion⟩,
   ⟨"rfc7191.py:214", Rfc7191.KeyPkgIdentifier, Rfc7191.KeyPkgIdentifier⟩,
   ⟨"rfc7191.py:215", Rfc7191.SIREntityName, Rfc7191.SIREntityName⟩,
   ⟨"rfc7191.py:226", Rfc7191.SIREntityNames, Rfc7191.SIREntityNames⟩,
   ⟨"rfc7191.py:228", Rfc7191.SIREntityNames, Rfc7191.SIREntityNames⟩,
   ⟨"rfc7191.py:238", Rfc7191.KeyPkgID, Rfc7191.KeyPkgID⟩,
   ⟨"rfc7191.py:239", Rfc7191.KeyPkgReceiptReq, Rfc7191.KeyPkgReceiptReq⟩,
   ⟨"rfc7191.py:247", Rfc7191.KeyPkgIdentifierAndReceiptReq, Rfc7191.KeyPkgIdentifierAndReceiptReq⟩,
   ⟨"rfc7191.py:257", Rfc7191.KeyPackageError, Rfc7191.KeyPackageError⟩,
   ⟨"rfc7191.py:258", Rfc7191.KeyPackageReceipt, Rfc7191.KeyPackageReceipt⟩]

/-- Functions rfc7191.py defines. -/
def builders : List (String × (List Py.OidArg → Py.Obj)) :=
  []

def asModule : Py.Module :=
  { id := (Py.mod 100 "rfc7191"), imports := imports, effects := effects, classes := classes, objects := objects, protos := protos, snapshots := snapshots, builders := builders }

end Rfc7191
end Verif
