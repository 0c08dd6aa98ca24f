import Verif.Spec.Grade
import Verif.Gen.Rfc4108
import Verif.Std.Rfc5280
import Verif.Std.Rfc5652

/-! The ASN.1 of tools/std/rfc4108.asn1 (generated by tools/stdgen.py). -/

namespace Verif
namespace Std
namespace Rfc4108

open Asn1 Spec.X680

/-- `FirmwarePkgData ::=` -/
def FirmwarePkgData : Ty :=
  OCTET_STRING

/-- `PreferredPackageIdentifier ::=` -/
def PreferredPackageIdentifier : Ty :=
  SEQUENCE [
    mandatory "fwPkgID" OBJECT_IDENTIFIER,
    mandatory "verNum" (constrained (RANGE_MAX 0) INTEGER)]

/-- `PreferredOrLegacyPackageIdentifier ::=` -/
def PreferredOrLegacyPackageIdentifier : Ty :=
  CHOICE [
    mandatory "preferred" PreferredPackageIdentifier,
    mandatory "legacy" OCTET_STRING]

/-- `PreferredOrLegacyStalePackageIdentifier ::=` -/
def PreferredOrLegacyStalePackageIdentifier : Ty :=
  CHOICE [
    mandatory "preferredStaleVerNum" (constrained (RANGE_MAX 0) INTEGER),
    mandatory "legacyStaleVersion" OCTET_STRING]

/-- `FirmwarePackageIdentifier ::=` -/
def FirmwarePackageIdentifier : Ty :=
  SEQUENCE [
    mandatory "name" PreferredOrLegacyPackageIdentifier,
    optional "stale" PreferredOrLegacyStalePackageIdentifier]

/-- `TargetHardwareIdentifiers ::=` -/
def TargetHardwareIdentifiers : Ty :=
  SEQUENCE_OF OBJECT_IDENTIFIER

/-- `DecryptKeyIdentifier ::=` -/
def DecryptKeyIdentifier : Ty :=
  OCTET_STRING

/-- `ImplementedCryptoAlgorithms ::=` -/
def ImplementedCryptoAlgorithms : Ty :=
  SEQUENCE_OF OBJECT_IDENTIFIER

/-- `ImplementedCompressAlgorithms ::=` -/
def ImplementedCompressAlgorithms : Ty :=
  SEQUENCE_OF OBJECT_IDENTIFIER

/-- `HardwareSerialEntry ::=` -/
def HardwareSerialEntry : Ty :=
  CHOICE [
    mandatory "all" NULL,
    mandatory "single" OCTET_STRING,
    mandatory "block" (SEQUENCE [
      mandatory "low" OCTET_STRING,
      mandatory "high" OCTET_STRING])]

/-- `HardwareModules ::=` -/
def HardwareModules : Ty :=
  SEQUENCE [
    mandatory "hwType" OBJECT_IDENTIFIER,
    mandatory "hwSerialEntries" (SEQUENCE_OF HardwareSerialEntry)]

/-- `CommunityIdentifier ::=` -/
def CommunityIdentifier : Ty :=
  CHOICE [
    mandatory "communityOID" OBJECT_IDENTIFIER,
    mandatory "hwModuleList" HardwareModules]

/-- `CommunityIdentifiers ::=` -/
def CommunityIdentifiers : Ty :=
  SEQUENCE_OF CommunityIdentifier

/-- `WrappedFirmwareKey ::=` -/
def WrappedFirmwareKey : Ty :=
  Std.Rfc5652.EnvelopedData

/-- `FWReceiptVersion ::=` -/
def FWReceiptVersion : Ty :=
  named [("v1", 1)] INTEGER

/-- `FirmwarePackageLoadReceipt ::=` -/
def FirmwarePackageLoadReceipt : Ty :=
  SEQUENCE [
    default "version" FWReceiptVersion (.int 1),
    mandatory "hwType" OBJECT_IDENTIFIER,
    mandatory "hwSerialNum" OCTET_STRING,
    mandatory "fwPkgName" PreferredOrLegacyPackageIdentifier,
    optional "trustAnchorKeyID" OCTET_STRING,
    optional "decryptKeyID" (implicit .context 1 OCTET_STRING)]

/-- `FirmwarePackageMessageDigest ::=` -/
def FirmwarePackageMessageDigest : Ty :=
  SEQUENCE [
    mandatory "algorithm" Std.Rfc5280.AlgorithmIdentifier,
    mandatory "msgDigest" OCTET_STRING]

/-- `FWErrorVersion ::=` -/
def FWErrorVersion : Ty :=
  named [("v1", 1)] INTEGER

/-- `FirmwarePackageLoadErrorCode ::=` -/
def FirmwarePackageLoadErrorCode : Ty :=
  named [("decodeFailure", 1), ("badContentInfo", 2), ("badSignedData", 3), ("badEncapContent", 4), ("badCertificate", 5), ("badSignerInfo", 6), ("badSignedAttrs", 7), ("badUnsignedAttrs", 8), ("missingContent", 9), ("noTrustAnchor", 10), ("notAuthorized", 11), ("badDigestAlgorithm", 12), ("badSignatureAlgorithm", 13), ("unsupportedKeySize", 14), ("signatureFailure", 15), ("contentTypeMismatch", 16), ("badEncryptedData", 17), ("unprotectedAttrsPresent", 18), ("badEncryptContent", 19), ("badEncryptAlgorithm", 20), ("missingCiphertext", 21), ("noDecryptKey", 22), ("decryptFailure", 23), ("badCompressAlgorithm", 24), ("missingCompressedContent", 25), ("decompressFailure", 26), ("wrongHardware", 27), ("stalePackage", 28), ("notInCommunity", 29), ("unsupportedPackageType", 30), ("missingDependency", 31), ("wrongDependencyVersion", 32), ("insufficientMemory", 33), ("badFirmware", 34), ("unsupportedParameters", 35), ("breaksDependency", 36), ("otherError", 99)] ENUMERATED

/-- `VendorLoadErrorCode ::=` -/
def VendorLoadErrorCode : Ty :=
  INTEGER

/-- `CurrentFWConfig ::=` -/
def CurrentFWConfig : Ty :=
  SEQUENCE [
    optional "fwPkgType" INTEGER,
    mandatory "fwPkgName" PreferredOrLegacyPackageIdentifier]

/-- `FirmwarePackageLoadError ::=` -/
def FirmwarePackageLoadError : Ty :=
  SEQUENCE [
    default "version" FWErrorVersion (.int 1),
    mandatory "hwType" OBJECT_IDENTIFIER,
    mandatory "hwSerialNum" OCTET_STRING,
    mandatory "errorCode" FirmwarePackageLoadErrorCode,
    optional "vendorErrorCode" VendorLoadErrorCode,
    optional "fwPkgName" PreferredOrLegacyPackageIdentifier,
    optional "config" (implicit .context 1 (SEQUENCE_OF CurrentFWConfig))]

/-- `HardwareModuleName ::=` -/
def HardwareModuleName : Ty :=
  SEQUENCE [
    mandatory "hwType" OBJECT_IDENTIFIER,
    mandatory "hwSerialNum" OCTET_STRING]

/-- Classes of rfc4108.py and the types of the standard they implement. -/
def entries : List Entry :=
  [⟨"rfc4108.HardwareSerialEntry", Verif.Rfc4108.HardwareSerialEntry, HardwareSerialEntry, .same, false⟩,
   ⟨"rfc4108.HardwareModules", Verif.Rfc4108.HardwareModules, HardwareModules, .same, false⟩,
   ⟨"rfc4108.CommunityIdentifier", Verif.Rfc4108.CommunityIdentifier, CommunityIdentifier, .same, false⟩,
   ⟨"rfc4108.PreferredPackageIdentifier", Verif.Rfc4108.PreferredPackageIdentifier, PreferredPackageIdentifier, .same, false⟩,
   ⟨"rfc4108.PreferredOrLegacyPackageIdentifier", Verif.Rfc4108.PreferredOrLegacyPackageIdentifier, PreferredOrLegacyPackageIdentifier, .same, false⟩,
   ⟨"rfc4108.CurrentFWConfig", Verif.Rfc4108.CurrentFWConfig, CurrentFWConfig, .same, false⟩,
   ⟨"rfc4108.PreferredOrLegacyStalePackageIdentifier", Verif.Rfc4108.PreferredOrLegacyStalePackageIdentifier, PreferredOrLegacyStalePackageIdentifier, .same, false⟩,
   ⟨"rfc4108.FirmwarePackageLoadErrorCode", Verif.Rfc4108.FirmwarePackageLoadErrorCode, FirmwarePackageLoadErrorCode, .same, false⟩,
   ⟨"rfc4108.VendorLoadErrorCode", Verif.Rfc4108.VendorLoadErrorCode, VendorLoadErrorCode, .same, false⟩,
   ⟨"rfc4108.WrappedFirmwareKey", Verif.Rfc4108.WrappedFirmwareKey, WrappedFirmwareKey, .same, false⟩,
   ⟨"rfc4108.CommunityIdentifiers", Verif.Rfc4108.CommunityIdentifiers, CommunityIdentifiers, .same, false⟩,
   ⟨"rfc4108.ImplementedCompressAlgorithms", Verif.Rfc4108.ImplementedCompressAlgorithms, ImplementedCompressAlgorithms, .same, false⟩,
   ⟨"rfc4108.ImplementedCryptoAlgorithms", Verif.Rfc4108.ImplementedCryptoAlgorithms, ImplementedCryptoAlgorithms, .same, false⟩,
   ⟨"rfc4108.DecryptKeyIdentifier", Verif.Rfc4108.DecryptKeyIdentifier, DecryptKeyIdentifier, .same, false⟩,
   ⟨"rfc4108.TargetHardwareIdentifiers", Verif.Rfc4108.TargetHardwareIdentifiers, TargetHardwareIdentifiers, .same, false⟩,
   ⟨"rfc4108.FirmwarePackageIdentifier", Verif.Rfc4108.FirmwarePackageIdentifier, FirmwarePackageIdentifier, .same, false⟩,
   ⟨"rfc4108.FirmwarePackageMessageDigest", Verif.Rfc4108.FirmwarePackageMessageDigest, FirmwarePackageMessageDigest, .same, false⟩,
   ⟨"rfc4108.FWErrorVersion", Verif.Rfc4108.FWErrorVersion, FWErrorVersion, .same, false⟩,
   ⟨"rfc4108.FirmwarePackageLoadError", Verif.Rfc4108.FirmwarePackageLoadError, FirmwarePackageLoadError, .same, false⟩,
   ⟨"rfc4108.FWReceiptVersion", Verif.Rfc4108.FWReceiptVersion, FWReceiptVersion, .same, false⟩,
   ⟨"rfc4108.FirmwarePackageLoadReceipt", Verif.Rfc4108.FirmwarePackageLoadReceipt, FirmwarePackageLoadReceipt, .same, false⟩,
   ⟨"rfc4108.FirmwarePkgData", Verif.Rfc4108.FirmwarePkgData, FirmwarePkgData, .same, false⟩,
   ⟨"rfc4108.HardwareModuleName", Verif.Rfc4108.HardwareModuleName, HardwareModuleName, .same, false⟩]

/-- Classes of rfc4108.py the transcription of the standard has no type for. -/
def beyond : List String :=
  ["rfc4108.FirmwarePackageInfo"]

/-- Constants of rfc4108.py and the values the standard gives them. -/
def constants : List Constant :=
  [⟨"rfc4108.id_aa_wrappedFirmwareKey", Verif.Rfc4108.id_aa_wrappedFirmwareKey, OBJECT_IDENTIFIER, .oid [1, 2, 840, 113549, 1, 9, 16, 2, 39], true⟩,
   ⟨"rfc4108.id_aa_firmwarePackageInfo", Verif.Rfc4108.id_aa_firmwarePackageInfo, OBJECT_IDENTIFIER, .oid [1, 2, 840, 113549, 1, 9, 16, 2, 42], true⟩,
   ⟨"rfc4108.id_aa_communityIdentifiers", Verif.Rfc4108.id_aa_communityIdentifiers, OBJECT_IDENTIFIER, .oid [1, 2, 840, 113549, 1, 9, 16, 2, 40], true⟩,
   ⟨"rfc4108.id_aa_implCompressAlgs", Verif.Rfc4108.id_aa_implCompressAlgs, OBJECT_IDENTIFIER, .oid [1, 2, 840, 113549, 1, 9, 16, 2, 43], true⟩,
   ⟨"rfc4108.id_aa_implCryptoAlgs", Verif.Rfc4108.id_aa_implCryptoAlgs, OBJECT_IDENTIFIER, .oid [1, 2, 840, 113549, 1, 9, 16, 2, 38], true⟩,
   ⟨"rfc4108.id_aa_decryptKeyID", Verif.Rfc4108.id_aa_decryptKeyID, OBJECT_IDENTIFIER, .oid [1, 2, 840, 113549, 1, 9, 16, 2, 37], true⟩,
   ⟨"rfc4108.id_aa_targetHardwareIDs", Verif.Rfc4108.id_aa_targetHardwareIDs, OBJECT_IDENTIFIER, .oid [1, 2, 840, 113549, 1, 9, 16, 2, 36], true⟩,
   ⟨"rfc4108.id_aa_firmwarePackageID", Verif.Rfc4108.id_aa_firmwarePackageID, OBJECT_IDENTIFIER, .oid [1, 2, 840, 113549, 1, 9, 16, 2, 35], true⟩,
   ⟨"rfc4108.id_aa_fwPkgMessageDigest", Verif.Rfc4108.id_aa_fwPkgMessageDigest, OBJECT_IDENTIFIER, .oid [1, 2, 840, 113549, 1, 9, 16, 2, 41], true⟩,
   ⟨"rfc4108.id_ct_firmwareLoadError", Verif.Rfc4108.id_ct_firmwareLoadError, OBJECT_IDENTIFIER, .oid [1, 2, 840, 113549, 1, 9, 16, 1, 18], true⟩,
   ⟨"rfc4108.id_ct_firmwareLoadReceipt", Verif.Rfc4108.id_ct_firmwareLoadReceipt, OBJECT_IDENTIFIER, .oid [1, 2, 840, 113549, 1, 9, 16, 1, 17], true⟩,
   ⟨"rfc4108.id_ct_firmwarePackage", Verif.Rfc4108.id_ct_firmwarePackage, OBJECT_IDENTIFIER, .oid [1, 2, 840, 113549, 1, 9, 16, 1, 16], true⟩,
   ⟨"rfc4108.id_on_hardwareModuleName", Verif.Rfc4108.id_on_hardwareModuleName, OBJECT_IDENTIFIER, .oid [1, 3, 6, 1, 5, 5, 7, 8, 4], true⟩]

/-- Constants of rfc4108.py the transcription of the standard has no value for. -/
def others : List String :=
  []

def standard : Standard := ⟨Verif.Rfc4108.asModule, entries, beyond, constants, others⟩

end Rfc4108
end Std
end Verif
