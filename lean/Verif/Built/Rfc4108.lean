import Verif.Spec.Built
import Verif.Std.Rfc4108

/-! What rfc4108.py implements, where that is not the standard (generated by tools/builtgen.py). -/

namespace Verif
namespace Built
namespace Rfc4108

open Asn1 Verif.Std Spec.X680 Spec.Built

/-- `FirmwarePackageInfo ::=`, changed or supplied -/
def FirmwarePackageInfo : Ty :=
  constrained (SIZE 1 2) (SEQUENCE [
    optional "fwPkgType" INTEGER,
    optional "dependencies" (SEQUENCE_OF Std.Rfc4108.PreferredOrLegacyPackageIdentifier)])

def description : Description :=
  ⟨Verif.Rfc4108.asModule,
   [⟨"rfc4108.HardwareSerialEntry", Verif.Rfc4108.HardwareSerialEntry, Std.Rfc4108.HardwareSerialEntry⟩,
    ⟨"rfc4108.HardwareModules", Verif.Rfc4108.HardwareModules, Std.Rfc4108.HardwareModules⟩,
    ⟨"rfc4108.CommunityIdentifier", Verif.Rfc4108.CommunityIdentifier, Std.Rfc4108.CommunityIdentifier⟩,
    ⟨"rfc4108.PreferredPackageIdentifier", Verif.Rfc4108.PreferredPackageIdentifier, Std.Rfc4108.PreferredPackageIdentifier⟩,
    ⟨"rfc4108.PreferredOrLegacyPackageIdentifier", Verif.Rfc4108.PreferredOrLegacyPackageIdentifier, Std.Rfc4108.PreferredOrLegacyPackageIdentifier⟩,
    ⟨"rfc4108.CurrentFWConfig", Verif.Rfc4108.CurrentFWConfig, Std.Rfc4108.CurrentFWConfig⟩,
    ⟨"rfc4108.PreferredOrLegacyStalePackageIdentifier", Verif.Rfc4108.PreferredOrLegacyStalePackageIdentifier, Std.Rfc4108.PreferredOrLegacyStalePackageIdentifier⟩,
    ⟨"rfc4108.FirmwarePackageLoadErrorCode", Verif.Rfc4108.FirmwarePackageLoadErrorCode, Std.Rfc4108.FirmwarePackageLoadErrorCode⟩,
    ⟨"rfc4108.VendorLoadErrorCode", Verif.Rfc4108.VendorLoadErrorCode, Std.Rfc4108.VendorLoadErrorCode⟩,
    ⟨"rfc4108.WrappedFirmwareKey", Verif.Rfc4108.WrappedFirmwareKey, Std.Rfc4108.WrappedFirmwareKey⟩,
    ⟨"rfc4108.FirmwarePackageInfo", Verif.Rfc4108.FirmwarePackageInfo, Built.Rfc4108.FirmwarePackageInfo⟩,
    ⟨"rfc4108.CommunityIdentifiers", Verif.Rfc4108.CommunityIdentifiers, Std.Rfc4108.CommunityIdentifiers⟩,
    ⟨"rfc4108.ImplementedCompressAlgorithms", Verif.Rfc4108.ImplementedCompressAlgorithms, Std.Rfc4108.ImplementedCompressAlgorithms⟩,
    ⟨"rfc4108.ImplementedCryptoAlgorithms", Verif.Rfc4108.ImplementedCryptoAlgorithms, Std.Rfc4108.ImplementedCryptoAlgorithms⟩,
    ⟨"rfc4108.DecryptKeyIdentifier", Verif.Rfc4108.DecryptKeyIdentifier, Std.Rfc4108.DecryptKeyIdentifier⟩,
    ⟨"rfc4108.TargetHardwareIdentifiers", Verif.Rfc4108.TargetHardwareIdentifiers, Std.Rfc4108.TargetHardwareIdentifiers⟩,
    ⟨"rfc4108.FirmwarePackageIdentifier", Verif.Rfc4108.FirmwarePackageIdentifier, Std.Rfc4108.FirmwarePackageIdentifier⟩,
    ⟨"rfc4108.FirmwarePackageMessageDigest", Verif.Rfc4108.FirmwarePackageMessageDigest, Std.Rfc4108.FirmwarePackageMessageDigest⟩,
    ⟨"rfc4108.FWErrorVersion", Verif.Rfc4108.FWErrorVersion, Std.Rfc4108.FWErrorVersion⟩,
    ⟨"rfc4108.FirmwarePackageLoadError", Verif.Rfc4108.FirmwarePackageLoadError, Std.Rfc4108.FirmwarePackageLoadError⟩,
    ⟨"rfc4108.FWReceiptVersion", Verif.Rfc4108.FWReceiptVersion, Std.Rfc4108.FWReceiptVersion⟩,
    ⟨"rfc4108.FirmwarePackageLoadReceipt", Verif.Rfc4108.FirmwarePackageLoadReceipt, Std.Rfc4108.FirmwarePackageLoadReceipt⟩,
    ⟨"rfc4108.FirmwarePkgData", Verif.Rfc4108.FirmwarePkgData, Std.Rfc4108.FirmwarePkgData⟩,
    ⟨"rfc4108.HardwareModuleName", Verif.Rfc4108.HardwareModuleName, Std.Rfc4108.HardwareModuleName⟩]⟩

end Rfc4108
end Built
end Verif
