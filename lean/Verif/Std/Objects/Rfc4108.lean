import Verif.Asn1.Objects
import Verif.Std.Rfc4108

/-! The objects of rfc4108 (generated by tools/objgen.py from tools/std/objects.txt). -/

set_option maxRecDepth 100000

namespace Verif
namespace Std
namespace Rfc4108

open Asn1 Spec.X680

def objects : List Object :=
  [⟨.CMS_ATTRIBUTE, .oid [1, 2, 840, 113549, 1, 9, 16, 2, 39], WrappedFirmwareKey, (some .same)⟩,
   ⟨.CMS_ATTRIBUTE, .oid [1, 2, 840, 113549, 1, 9, 16, 2, 42], Verif.Rfc4108.FirmwarePackageInfo.call.ty, (some .same)⟩,
   ⟨.CMS_ATTRIBUTE, .oid [1, 2, 840, 113549, 1, 9, 16, 2, 40], CommunityIdentifiers, (some .same)⟩,
   ⟨.CMS_ATTRIBUTE, .oid [1, 2, 840, 113549, 1, 9, 16, 2, 43], ImplementedCompressAlgorithms, (some .same)⟩,
   ⟨.CMS_ATTRIBUTE, .oid [1, 2, 840, 113549, 1, 9, 16, 2, 38], ImplementedCryptoAlgorithms, (some .same)⟩,
   ⟨.CMS_ATTRIBUTE, .oid [1, 2, 840, 113549, 1, 9, 16, 2, 37], DecryptKeyIdentifier, (some .same)⟩,
   ⟨.CMS_ATTRIBUTE, .oid [1, 2, 840, 113549, 1, 9, 16, 2, 36], TargetHardwareIdentifiers, (some .same)⟩,
   ⟨.CMS_ATTRIBUTE, .oid [1, 2, 840, 113549, 1, 9, 16, 2, 35], FirmwarePackageIdentifier, (some .same)⟩,
   ⟨.CMS_ATTRIBUTE, .oid [1, 2, 840, 113549, 1, 9, 16, 2, 41], FirmwarePackageMessageDigest, (some .same)⟩,
   ⟨.CONTENT_TYPE, .oid [1, 2, 840, 113549, 1, 9, 16, 1, 18], FirmwarePackageLoadError, (some .same)⟩,
   ⟨.CONTENT_TYPE, .oid [1, 2, 840, 113549, 1, 9, 16, 1, 17], FirmwarePackageLoadReceipt, (some .same)⟩,
   ⟨.CONTENT_TYPE, .oid [1, 2, 840, 113549, 1, 9, 16, 1, 16], FirmwarePkgData, (some .same)⟩,
   ⟨.OTHER_NAME, .oid [1, 3, 6, 1, 5, 5, 7, 8, 4], HardwareModuleName, (some .same)⟩]

def unlisted : List (ObjClass × Val) :=
  []

def registered : Objects := ⟨Verif.Rfc4108.asModule, objects, unlisted⟩

end Rfc4108
end Std
end Verif
