import Verif.Py.Obj
import Verif.Gen.Rfc5280
import Verif.Gen.Rfc5652

/-! Transcription of /repo/pyasn1_modules/rfc4108.py (generated by tools/gen.py). -/

namespace Verif
namespace Rfc4108

/-- rfc4108.py:24 -/
def MAX : Py.Bound :=
  .inf

/-- rfc4108.py:27-28 `class HardwareSerialEntry(univ.Choice)` -/
def HardwareSerialEntry__0 : Py.Obj :=
  Py.univ.Choice

/-- rfc4108.py:30-38 `HardwareSerialEntry.componentType = ...` -/
def HardwareSerialEntry : Py.Obj :=
  Rfc4108.HardwareSerialEntry__0.setComponentType (Py.NamedTypes [
    Py.NamedType "all" Py.univ.Null.call,
    Py.NamedType "single" Py.univ.OctetString.call,
    Py.NamedType "block" (Py.univ.Sequence.call.setComponentType (Py.NamedTypes [
    Py.NamedType "low" Py.univ.OctetString.call,
    Py.NamedType "high" Py.univ.OctetString.call]))])

/-- rfc4108.py:41-42 `class HardwareModules(univ.Sequence)` -/
def HardwareModules__0 : Py.Obj :=
  Py.univ.Sequence

/-- rfc4108.py:44-47 `HardwareModules.componentType = ...` -/
def HardwareModules : Py.Obj :=
  Rfc4108.HardwareModules__0.setComponentType (Py.NamedTypes [
    Py.NamedType "hwType" Py.univ.ObjectIdentifier.call,
    Py.NamedType "hwSerialEntries" (Py.univ.SequenceOf.call.setComponentTypeOf Rfc4108.HardwareSerialEntry.call)])

/-- rfc4108.py:50-51 `class CommunityIdentifier(univ.Choice)` -/
def CommunityIdentifier__0 : Py.Obj :=
  Py.univ.Choice

/-- rfc4108.py:53-56 `CommunityIdentifier.componentType = ...` -/
def CommunityIdentifier : Py.Obj :=
  Rfc4108.CommunityIdentifier__0.setComponentType (Py.NamedTypes [
    Py.NamedType "communityOID" Py.univ.ObjectIdentifier.call,
    Py.NamedType "hwModuleList" Rfc4108.HardwareModules.call])

/-- rfc4108.py:60-61 `class PreferredPackageIdentifier(univ.Sequence)` -/
def PreferredPackageIdentifier__0 : Py.Obj :=
  Py.univ.Sequence

/-- rfc4108.py:63-66 `PreferredPackageIdentifier.componentType = ...` -/
def PreferredPackageIdentifier : Py.Obj :=
  Rfc4108.PreferredPackageIdentifier__0.setComponentType (Py.NamedTypes [
    Py.NamedType "fwPkgID" Py.univ.ObjectIdentifier.call,
    Py.NamedType "verNum" (Py.univ.Integer.call.addSubtypeSpec (Py.ValueRangeConstraint (.fin 0) Rfc4108.MAX))])

/-- rfc4108.py:69-70 `class PreferredOrLegacyPackageIdentifier(univ.Choice)` -/
def PreferredOrLegacyPackageIdentifier__0 : Py.Obj :=
  Py.univ.Choice

/-- rfc4108.py:72-75 `PreferredOrLegacyPackageIdentifier.componentType = ...` -/
def PreferredOrLegacyPackageIdentifier : Py.Obj :=
  Rfc4108.PreferredOrLegacyPackageIdentifier__0.setComponentType (Py.NamedTypes [
    Py.NamedType "preferred" Rfc4108.PreferredPackageIdentifier.call,
    Py.NamedType "legacy" Py.univ.OctetString.call])

/-- rfc4108.py:78-79 `class CurrentFWConfig(univ.Sequence)` -/
def CurrentFWConfig__0 : Py.Obj :=
  Py.univ.Sequence

/-- rfc4108.py:81-84 `CurrentFWConfig.componentType = ...` -/
def CurrentFWConfig : Py.Obj :=
  Rfc4108.CurrentFWConfig__0.setComponentType (Py.NamedTypes [
    Py.OptionalNamedType "fwPkgType" Py.univ.Integer.call,
    Py.NamedType "fwPkgName" Rfc4108.PreferredOrLegacyPackageIdentifier.call])

/-- rfc4108.py:87-88 `class PreferredOrLegacyStalePackageIdentifier(univ.Choice)` -/
def PreferredOrLegacyStalePackageIdentifier__0 : Py.Obj :=
  Py.univ.Choice

/-- rfc4108.py:90-93 `PreferredOrLegacyStalePackageIdentifier.componentType = ...` -/
def PreferredOrLegacyStalePackageIdentifier : Py.Obj :=
  Rfc4108.PreferredOrLegacyStalePackageIdentifier__0.setComponentType (Py.NamedTypes [
    Py.NamedType "preferredStaleVerNum" (Py.univ.Integer.call.addSubtypeSpec (Py.ValueRangeConstraint (.fin 0) Rfc4108.MAX)),
    Py.NamedType "legacyStaleVersion" Py.univ.OctetString.call])

/-- rfc4108.py:96-97 `class FirmwarePackageLoadErrorCode(univ.Enumerated)` -/
def FirmwarePackageLoadErrorCode__0 : Py.Obj :=
  Py.univ.Enumerated

/-- rfc4108.py:99-137 `FirmwarePackageLoadErrorCode.namedValues = ...` -/
def FirmwarePackageLoadErrorCode : Py.Obj :=
  Rfc4108.FirmwarePackageLoadErrorCode__0.setNamedValues (Py.NamedValues [("decodeFailure", 1), ("badContentInfo", 2), ("badSignedData", 3), ("badEncapContent", 4), ("badCertificate", 5), ("badSignerInfo", 6), ("badSignedAttrs", 7), ("badUnsignedAttrs", 8), ("missingContent", 9), ("noTrustAnchor", 10), ("notAuthorized", 11), ("badDigestAlgorithm", 12), ("badSignatureAlgorithm", 13), ("unsupportedKeySize", 14), ("signatureFailure", 15), ("contentTypeMismatch", 16), ("badEncryptedData", 17), ("unprotectedAttrsPresent", 18), ("badEncryptContent", 19), ("badEncryptAlgorithm", 20), ("missingCiphertext", 21), ("noDecryptKey", 22), ("decryptFailure", 23), ("badCompressAlgorithm", 24), ("missingCompressedContent", 25), ("decompressFailure", 26), ("wrongHardware", 27), ("stalePackage", 28), ("notInCommunity", 29), ("unsupportedPackageType", 30), ("missingDependency", 31), ("wrongDependencyVersion", 32), ("insufficientMemory", 33), ("badFirmware", 34), ("unsupportedParameters", 35), ("breaksDependency", 36), ("otherError", 99)])

/-- rfc4108.py:140-141 `class VendorLoadErrorCode(univ.Integer)` -/
def VendorLoadErrorCode : Py.Obj :=
  Py.univ.Integer

/-- rfc4108.py:146 -/
def id_aa_wrappedFirmwareKey : Py.Obj :=
  (Py.univ.ObjectIdentifier.call.callArcs [1, 2, 840, 113549, 1, 9, 16, 2, 39])

/-- rfc4108.py:148-149 `class WrappedFirmwareKey(rfc5652.EnvelopedData)` -/
def WrappedFirmwareKey : Py.Obj :=
  Rfc5652.EnvelopedData

/-- rfc4108.py:154 -/
def id_aa_firmwarePackageInfo : Py.Obj :=
  (Py.univ.ObjectIdentifier.call.callArcs [1, 2, 840, 113549, 1, 9, 16, 2, 42])

/-- rfc4108.py:156-157 `class FirmwarePackageInfo(univ.Sequence)` -/
def FirmwarePackageInfo__0 : Py.Obj :=
  Py.univ.Sequence

/-- rfc4108.py:159-162 `FirmwarePackageInfo.componentType = ...` -/
def FirmwarePackageInfo__1 : Py.Obj :=
  Rfc4108.FirmwarePackageInfo__0.setComponentType (Py.NamedTypes [
    Py.OptionalNamedType "fwPkgType" Py.univ.Integer.call,
    Py.OptionalNamedType "dependencies" (Py.univ.SequenceOf.call.setComponentTypeOf Rfc4108.PreferredOrLegacyPackageIdentifier.call)])

/-- rfc4108.py:164 `FirmwarePackageInfo.sizeSpec = ...` -/
def FirmwarePackageInfo : Py.Obj :=
  Rfc4108.FirmwarePackageInfo__1.setSizeSpec (Py.univ.Sequence.sizeSpec.add (Py.ValueSizeConstraint (.fin 1) (.fin 2)))

/-- rfc4108.py:169 -/
def id_aa_communityIdentifiers : Py.Obj :=
  (Py.univ.ObjectIdentifier.call.callArcs [1, 2, 840, 113549, 1, 9, 16, 2, 40])

/-- rfc4108.py:171-172 `class CommunityIdentifiers(univ.SequenceOf)` -/
def CommunityIdentifiers__0 : Py.Obj :=
  Py.univ.SequenceOf

/-- rfc4108.py:174 `CommunityIdentifiers.componentType = ...` -/
def CommunityIdentifiers : Py.Obj :=
  Rfc4108.CommunityIdentifiers__0.setComponentTypeOf Rfc4108.CommunityIdentifier.call

/-- rfc4108.py:179 -/
def id_aa_implCompressAlgs : Py.Obj :=
  (Py.univ.ObjectIdentifier.call.callArcs [1, 2, 840, 113549, 1, 9, 16, 2, 43])

/-- rfc4108.py:181-182 `class ImplementedCompressAlgorithms(univ.SequenceOf)` -/
def ImplementedCompressAlgorithms__0 : Py.Obj :=
  Py.univ.SequenceOf

/-- rfc4108.py:184 `ImplementedCompressAlgorithms.componentType = ...` -/
def ImplementedCompressAlgorithms : Py.Obj :=
  Rfc4108.ImplementedCompressAlgorithms__0.setComponentTypeOf Py.univ.ObjectIdentifier.call

/-- rfc4108.py:189 -/
def id_aa_implCryptoAlgs : Py.Obj :=
  (Py.univ.ObjectIdentifier.call.callArcs [1, 2, 840, 113549, 1, 9, 16, 2, 38])

/-- rfc4108.py:191-192 `class ImplementedCryptoAlgorithms(univ.SequenceOf)` -/
def ImplementedCryptoAlgorithms__0 : Py.Obj :=
  Py.univ.SequenceOf

/-- rfc4108.py:194 `ImplementedCryptoAlgorithms.componentType = ...` -/
def ImplementedCryptoAlgorithms : Py.Obj :=
  Rfc4108.ImplementedCryptoAlgorithms__0.setComponentTypeOf Py.univ.ObjectIdentifier.call

/-- rfc4108.py:199 -/
def id_aa_decryptKeyID : Py.Obj :=
  (Py.univ.ObjectIdentifier.call.callArcs [1, 2, 840, 113549, 1, 9, 16, 2, 37])

/-- rfc4108.py:201-202 `class DecryptKeyIdentifier(univ.OctetString)` -/
def DecryptKeyIdentifier : Py.Obj :=
  Py.univ.OctetString

/-- rfc4108.py:207 -/
def id_aa_targetHardwareIDs : Py.Obj :=
  (Py.univ.ObjectIdentifier.call.callArcs [1, 2, 840, 113549, 1, 9, 16, 2, 36])

/-- rfc4108.py:209-210 `class TargetHardwareIdentifiers(univ.SequenceOf)` -/
def TargetHardwareIdentifiers__0 : Py.Obj :=
  Py.univ.SequenceOf

/-- rfc4108.py:212 `TargetHardwareIdentifiers.componentType = ...` -/
def TargetHardwareIdentifiers : Py.Obj :=
  Rfc4108.TargetHardwareIdentifiers__0.setComponentTypeOf Py.univ.ObjectIdentifier.call

/-- rfc4108.py:217 -/
def id_aa_firmwarePackageID : Py.Obj :=
  (Py.univ.ObjectIdentifier.call.callArcs [1, 2, 840, 113549, 1, 9, 16, 2, 35])

/-- rfc4108.py:219-220 `class FirmwarePackageIdentifier(univ.Sequence)` -/
def FirmwarePackageIdentifier__0 : Py.Obj :=
  Py.univ.Sequence

/-- rfc4108.py:222-225 `FirmwarePackageIdentifier.componentType = ...` -/
def FirmwarePackageIdentifier : Py.Obj :=
  Rfc4108.FirmwarePackageIdentifier__0.setComponentType (Py.NamedTypes [
    Py.NamedType "name" Rfc4108.PreferredOrLegacyPackageIdentifier.call,
    Py.OptionalNamedType "stale" Rfc4108.PreferredOrLegacyStalePackageIdentifier.call])

/-- rfc4108.py:230 -/
def id_aa_fwPkgMessageDigest : Py.Obj :=
  (Py.univ.ObjectIdentifier.call.callArcs [1, 2, 840, 113549, 1, 9, 16, 2, 41])

/-- rfc4108.py:232-233 `class FirmwarePackageMessageDigest(univ.Sequence)` -/
def FirmwarePackageMessageDigest__0 : Py.Obj :=
  Py.univ.Sequence

/-- rfc4108.py:235-238 `FirmwarePackageMessageDigest.componentType = ...` -/
def FirmwarePackageMessageDigest : Py.Obj :=
  Rfc4108.FirmwarePackageMessageDigest__0.setComponentType (Py.NamedTypes [
    Py.NamedType "algorithm" Rfc5280.AlgorithmIdentifier.call,
    Py.NamedType "msgDigest" Py.univ.OctetString.call])

/-- rfc4108.py:243-244 `class FWErrorVersion(univ.Integer)` -/
def FWErrorVersion__0 : Py.Obj :=
  Py.univ.Integer

/-- rfc4108.py:246-248 `FWErrorVersion.namedValues = ...` -/
def FWErrorVersion : Py.Obj :=
  Rfc4108.FWErrorVersion__0.setNamedValues (Py.NamedValues [("v1", 1)])

/-- rfc4108.py:251 -/
def id_ct_firmwareLoadError : Py.Obj :=
  (Py.univ.ObjectIdentifier.call.callArcs [1, 2, 840, 113549, 1, 9, 16, 1, 18])

/-- rfc4108.py:253-254 `class FirmwarePackageLoadError(univ.Sequence)` -/
def FirmwarePackageLoadError__0 : Py.Obj :=
  Py.univ.Sequence

/-- rfc4108.py:256-264 `FirmwarePackageLoadError.componentType = ...` -/
def FirmwarePackageLoadError : Py.Obj :=
  Rfc4108.FirmwarePackageLoadError__0.setComponentType (Py.NamedTypes [
    Py.DefaultedNamedType "version" (Rfc4108.FWErrorVersion.call.callStr "v1"),
    Py.NamedType "hwType" Py.univ.ObjectIdentifier.call,
    Py.NamedType "hwSerialNum" Py.univ.OctetString.call,
    Py.NamedType "errorCode" Rfc4108.FirmwarePackageLoadErrorCode.call,
    Py.OptionalNamedType "vendorErrorCode" Rfc4108.VendorLoadErrorCode.call,
    Py.OptionalNamedType "fwPkgName" Rfc4108.PreferredOrLegacyPackageIdentifier.call,
    Py.OptionalNamedType "config" ((Py.univ.SequenceOf.call.setComponentTypeOf Rfc4108.CurrentFWConfig.call).implicitTag (Py.Tag .context false 1))])

/-- rfc4108.py:269-270 `class FWReceiptVersion(univ.Integer)` -/
def FWReceiptVersion__0 : Py.Obj :=
  Py.univ.Integer

/-- rfc4108.py:272-274 `FWReceiptVersion.namedValues = ...` -/
def FWReceiptVersion : Py.Obj :=
  Rfc4108.FWReceiptVersion__0.setNamedValues (Py.NamedValues [("v1", 1)])

/-- rfc4108.py:277 -/
def id_ct_firmwareLoadReceipt : Py.Obj :=
  (Py.univ.ObjectIdentifier.call.callArcs [1, 2, 840, 113549, 1, 9, 16, 1, 17])

/-- rfc4108.py:279-280 `class FirmwarePackageLoadReceipt(univ.Sequence)` -/
def FirmwarePackageLoadReceipt__0 : Py.Obj :=
  Py.univ.Sequence

/-- rfc4108.py:282-289 `FirmwarePackageLoadReceipt.componentType = ...` -/
def FirmwarePackageLoadReceipt : Py.Obj :=
  Rfc4108.FirmwarePackageLoadReceipt__0.setComponentType (Py.NamedTypes [
    Py.DefaultedNamedType "version" (Rfc4108.FWReceiptVersion.call.callStr "v1"),
    Py.NamedType "hwType" Py.univ.ObjectIdentifier.call,
    Py.NamedType "hwSerialNum" Py.univ.OctetString.call,
    Py.NamedType "fwPkgName" Rfc4108.PreferredOrLegacyPackageIdentifier.call,
    Py.OptionalNamedType "trustAnchorKeyID" Py.univ.OctetString.call,
    Py.OptionalNamedType "decryptKeyID" (Py.univ.OctetString.call.implicitTag (Py.Tag .context false 1))])

/-- rfc4108.py:294 -/
def id_ct_firmwarePackage : Py.Obj :=
  (Py.univ.ObjectIdentifier.call.callArcs [1, 2, 840, 113549, 1, 9, 16, 1, 16])

/-- rfc4108.py:296-297 `class FirmwarePkgData(univ.OctetString)` -/
def FirmwarePkgData : Py.Obj :=
  Py.univ.OctetString

/-- rfc4108.py:302 -/
def id_on_hardwareModuleName : Py.Obj :=
  (Py.univ.ObjectIdentifier.call.callArcs [1, 3, 6, 1, 5, 5, 7, 8, 4])

/-- rfc4108.py:304-305 `class HardwareModuleName(univ.Sequence)` -/
def HardwareModuleName__0 : Py.Obj :=
  Py.univ.Sequence

/-- rfc4108.py:307-310 `HardwareModuleName.componentType = ...` -/
def HardwareModuleName : Py.Obj :=
  Rfc4108.HardwareModuleName__0.setComponentType (Py.NamedTypes [
    Py.NamedType "hwType" Py.univ.ObjectIdentifier.call,
    Py.NamedType "hwSerialNum" Py.univ.OctetString.call])

/-- rfc4108.py:316-326 -/
def _cmsAttributesMapUpdate : Py.Entries :=
  [(Rfc4108.id_aa_wrappedFirmwareKey.value, Rfc4108.WrappedFirmwareKey.call.ty),
    (Rfc4108.id_aa_firmwarePackageInfo.value, Rfc4108.FirmwarePackageInfo.call.ty),
    (Rfc4108.id_aa_communityIdentifiers.value, Rfc4108.CommunityIdentifiers.call.ty),
    (Rfc4108.id_aa_implCompressAlgs.value, Rfc4108.ImplementedCompressAlgorithms.call.ty),
    (Rfc4108.id_aa_implCryptoAlgs.value, Rfc4108.ImplementedCryptoAlgorithms.call.ty),
    (Rfc4108.id_aa_decryptKeyID.value, Rfc4108.DecryptKeyIdentifier.call.ty),
    (Rfc4108.id_aa_targetHardwareIDs.value, Rfc4108.TargetHardwareIdentifiers.call.ty),
    (Rfc4108.id_aa_firmwarePackageID.value, Rfc4108.FirmwarePackageIdentifier.call.ty),
    (Rfc4108.id_aa_fwPkgMessageDigest.value, Rfc4108.FirmwarePackageMessageDigest.call.ty)]

/-- rfc4108.py:334-338 -/
def _cmsContentTypesMapUpdate : Py.Entries :=
  [(Rfc4108.id_ct_firmwareLoadError.value, Rfc4108.FirmwarePackageLoadError.call.ty),
    (Rfc4108.id_ct_firmwareLoadReceipt.value, Rfc4108.FirmwarePackageLoadReceipt.call.ty),
    (Rfc4108.id_ct_firmwarePackage.value, Rfc4108.FirmwarePkgData.call.ty)]

/-- rfc4108.py:346-348 -/
def _anotherNameMapUpdate : Py.Entries :=
  [(Rfc4108.id_on_hardwareModuleName.value, Rfc4108.HardwareModuleName.call.ty)]

/-- Modules of this package imported by rfc4108.py, in textual order. -/
def imports : List Py.Ident :=
  [(Py.mod 15 "rfc5280"), (Py.mod 16 "rfc5652")]

/-- Dictionary operations executed when rfc4108.py is imported, in program order. -/
def effects : List Py.Effect :=
  [.create (Py.map 60 "rfc4108._cmsAttributesMapUpdate") Rfc4108._cmsAttributesMapUpdate /- rfc4108.py:316-326 -/,
   .update (Py.map 8 "rfc5652.cmsAttributesMap") Rfc4108._cmsAttributesMapUpdate /- rfc4108.py:328 -/,
   .create (Py.map 61 "rfc4108._cmsContentTypesMapUpdate") Rfc4108._cmsContentTypesMapUpdate /- rfc4108.py:334-338 -/,
   .update (Py.map 13 "rfc5652.cmsContentTypesMap") Rfc4108._cmsContentTypesMapUpdate /- rfc4108.py:340 -/,
   .create (Py.map 62 "rfc4108._anotherNameMapUpdate") Rfc4108._anotherNameMapUpdate /- rfc4108.py:346-348 -/,
   .update (Py.map 6 "rfc5280.anotherNameMap") Rfc4108._anotherNameMapUpdate /- rfc4108.py:350 -/]

/-- ASN.1 types rfc4108.py binds at module level (final version of each name), plus nested classes. -/
def classes : List (String × Py.Obj) :=
  [("rfc4108.HardwareSerialEntry", Rfc4108.HardwareSerialEntry),
   ("rfc4108.HardwareModules", Rfc4108.HardwareModules),
   ("rfc4108.CommunityIdentifier", Rfc4108.CommunityIdentifier),
   ("rfc4108.PreferredPackageIdentifier", Rfc4108.PreferredPackageIdentifier),
   ("rfc4108.PreferredOrLegacyPackageIdentifier", Rfc4108.PreferredOrLegacyPackageIdentifier),
   ("rfc4108.CurrentFWConfig", Rfc4108.CurrentFWConfig),
   ("rfc4108.PreferredOrLegacyStalePackageIdentifier", Rfc4108.PreferredOrLegacyStalePackageIdentifier),
   ("rfc4108.FirmwarePackageLoadErrorCode", Rfc4108.FirmwarePackageLoadErrorCode),
   ("rfc4108.VendorLoadErrorCode", Rfc4108.VendorLoadErrorCode),
   ("rfc4108.WrappedFirmwareKey", Rfc4108.WrappedFirmwareKey),
   ("rfc4108.FirmwarePackageInfo", Rfc4108.FirmwarePackageInfo),
   ("rfc4108.CommunityIdentifiers", Rfc4108.CommunityIdentifiers),
   ("rfc4108.ImplementedCompressAlgorithms", Rfc4108.ImplementedCompressAlgorithms),
   ("rfc4108.ImplementedCryptoAlgorithms", Rfc4108.ImplementedCryptoAlgorithms),
   ("rfc4108.DecryptKeyIdentifier", Rfc4108.DecryptKeyIdentifier),
   ("rfc4108.TargetHardwareIdentifiers", Rfc4108.TargetHardwareIdentifiers),
   ("rfc4108.FirmwarePackageIdentifier", Rfc4108.FirmwarePackageIdentifier),
   ("rfc4108.FirmwarePackageMessageDigest", Rfc4108.FirmwarePackageMessageDigest),
   ("rfc4108.FWErrorVersion", Rfc4108.FWErrorVersion),
   ("rfc4108.FirmwarePackageLoadError", Rfc4108.FirmwarePackageLoadError),
   ("rfc4108.FWReceiptVersion", Rfc4108.FWReceiptVersion),
   ("rfc4108.FirmwarePackageLoadReceipt", Rfc4108.FirmwarePackageLoadReceipt),
   ("rfc4108.FirmwarePkgData", Rfc4108.FirmwarePkgData),
   ("rfc4108.HardwareModuleName", Rfc4108.HardwareModuleName)]

/-- pyasn1 instances rfc4108.py binds at module level. -/
def objects : List (String × Py.Obj) :=
  [("rfc4108.id_aa_wrappedFirmwareKey", Rfc4108.id_aa_wrappedFirmwareKey),
   ("rfc4108.id_aa_firmwarePackageInfo", Rfc4108.id_aa_firmwarePackageInfo),
   ("rfc4108.id_aa_communityIdentifiers", Rfc4108.id_aa_communityIdentifiers),
   ("rfc4108.id_aa_implCompressAlgs", Rfc4108.id_aa_implCompressAlgs),
   ("rfc4108.id_aa_implCryptoAlgs", Rfc4108.id_aa_implCryptoAlgs),
   ("rfc4108.id_aa_decryptKeyID", Rfc4108.id_aa_decryptKeyID),
   ("rfc4108.id_aa_targetHardwareIDs", Rfc4108.id_aa_targetHardwareIDs),
   ("rfc4108.id_aa_firmwarePackageID", Rfc4108.id_aa_firmwarePackageID),
   ("rfc4108.id_aa_fwPkgMessageDigest", Rfc4108.id_aa_fwPkgMessageDigest),
   ("rfc4108.id_ct_firmwareLoadError", Rfc4108.id_ct_firmwareLoadError),
   ("rfc4108.id_ct_firmwareLoadReceipt", Rfc4108.id_ct_firmwareLoadReceipt),
   ("rfc4108.id_ct_firmwarePackage", Rfc4108.id_ct_firmwarePackage),
   ("rfc4108.id_on_hardwareModuleName", Rfc4108.id_on_hardwareModuleName)]

/-- pyasn1 instances rfc4108.py fills in by item assignment. -/
def protos : List (String × Py.Proto) :=
  []

/-- Every place of rfc4108.py that instantiates a class of the package: where, the class as it is
at that point, and the class as it is when the import has finished. -/
def snapshots : List Py.Snapshot :=
  [⟨"rfc4108.py:46", Rfc4108.HardwareSerialEntry, Rfc4108.HardwareSerialEntry⟩,
   ⟨"rfc4108.py:55", Rfc4108.HardwareModules, Rfc4108.HardwareModules⟩,
   ⟨"rfc4108.py:73", Rfc4108.PreferredPackageIdentifier, Rfc4108.PreferredPackageIdentifier⟩,
   ⟨"rfc4108.py:83", Rfc4108.PreferredOrLegacyPackageIdentifier, Rfc4108.PreferredOrLegacyPackageIdentifier⟩,
   ⟨"rfc4108.py:161", Rfc4108.PreferredOrLegacyPackageIdentifier, Rfc4108.PreferredOrLegacyPackageIdentifier⟩,
   ⟨"rfc4108.py:174", Rfc4108.CommunityIdentifier, Rfc4108.CommunityIdentifier⟩,
   ⟨"rfc4108.py:223", Rfc4108.PreferredOrLegacyPackageIdentifier, Rfc4108.PreferredOrLegacyPackageIdentifier⟩,
   ⟨"rfc4108.py:224", Rfc4108.PreferredOrLegacyStalePackageIdentifier, Rfc4108.PreferredOrLegacyStalePackageIdentifier⟩,
   ⟨"rfc4108.py:236", Rfc5280.AlgorithmIdentifier, Rfc5280.AlgorithmIdentifier⟩,
   ⟨"rfc4108.py:257", Rfc4108.FWErrorVersion, Rfc4108.FWErrorVersion⟩,
   ⟨"rfc4108.py:260", Rfc4108.FirmwarePackageLoadErrorCode, Rfc4108.FirmwarePackageLoadErrorCode⟩,
   ⟨"rfc4108.py:261", Rfc4108.VendorLoadErrorCode, Rfc4108.VendorLoadErrorCode⟩,
   ⟨"rfc4108.py:262", Rfc4108.PreferredOrLegacyPackageIdentifier, Rfc4108.PreferredOrLegacyPackageIdentifier⟩,
   ⟨"rfc4108.py:263", Rfc4108.CurrentFWConfig, Rfc4108.CurrentFWConfig⟩,
   ⟨"rfc4108.py:283", Rfc4108.FWReceiptVersion, Rfc4108.FWReceiptVersion⟩,
   ⟨"rfc4108.py:286", Rfc4108.PreferredOrLegacyPackageIdentifier, Rfc4108.PreferredOrLegacyPackageIdentifier⟩,
   ⟨"rfc4108.py:317", Rfc4108.WrappedFirmwareKey, Rfc4108.WrappedFirmwareKey⟩,
   ⟨"rfc4108.py:318", Rfc4108.FirmwarePackageInfo, Rfc4108.FirmwarePackageInfo⟩,
   ⟨"rfc4108.py:319", Rfc4108.CommunityIdentifiers, Rfc4108.CommunityIdentifiers⟩,
   ⟨"rfc4108.py:320", Rfc4108.ImplementedCompressAlgorithms, Rfc4108.ImplementedCompressAlgorithms⟩,
   ⟨"rfc4108.py:321", Rfc4108.ImplementedCryptoAlgorithms, Rfc4108.ImplementedCryptoAlgorithms⟩,
   ⟨"rfc4108.py:322", Rfc4108.DecryptKeyIdentifier, Rfc4108.DecryptKeyIdentifier⟩,
   ⟨"rfc4108.py:323", Rfc4108.TargetHardwareIdentifiers, Rfc4108.TargetHardwareIdentifiers⟩,
   ⟨"rfc4108.py:324", Rfc4108.FirmwarePackageIdentifier, Rfc4108.FirmwarePackageIdentifier⟩,
   ⟨"rfc4108.py:325", Rfc4108.FirmwarePackageMessageDigest, Rfc4108.FirmwarePackageMessageDigest⟩,
   ⟨"rfc4108.py:335", Rfc4108.FirmwarePackageLoadError, Rfc4108.FirmwarePackageLoadError⟩,
   ⟨"rfc4108.py:336", Rfc4108.FirmwarePackageLoadReceipt, Rfc4108.FirmwarePackageLoadReceipt⟩,
   ⟨"rfc4108.py:337", Rfc4108.FirmwarePkgData, Rfc4108.FirmwarePkgData⟩,
   ⟨"rfc4108.py:347", Rfc4108.HardwareModuleName, Rfc4108.HardwareModuleName⟩]

/-- Functions rfc4108.py defines. -/
def builders : List (String × (List Py.OidArg → Py.Obj)) :=
  []

def asModule : Py.Module :=
  { id := (Py.mod 55 "rfc4108"), imports := imports, effects := effects, classes := classes, objects := objects, protos := protos, snapshots := snapshots, builders := builders }

end Rfc4108
end Verif
