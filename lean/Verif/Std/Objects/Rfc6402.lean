import Verif.Asn1.Objects
import Verif.Std.Rfc6402

/-! The objects of rfc6402 (generated by tools/objgen.py from tools/std/objects.txt). -/

set_option maxRecDepth 100000

namespace Verif
namespace Std
namespace Rfc6402

open Asn1 Spec.X680

def objects : List Object :=
  [⟨.CMS_ATTRIBUTE, .oid [1, 3, 6, 1, 5, 5, 7, 7, 1], CMCStatusInfo, (some .relaxed)⟩,
   ⟨.CMS_ATTRIBUTE, .oid [1, 3, 6, 1, 5, 5, 7, 7, 25], CMCStatusInfoV2, (some (.refused [48, 15, 2, 1, 0, 48, 3, 2, 1, 0, 161, 5, 6, 1, 43, 5, 0]))⟩,
   ⟨.CMS_ATTRIBUTE, .oid [1, 3, 6, 1, 5, 5, 7, 7, 2], UTF8String, (some .same)⟩,
   ⟨.CMS_ATTRIBUTE, .oid [1, 3, 6, 1, 5, 5, 7, 7, 3], OCTET_STRING, (some .same)⟩,
   ⟨.CMS_ATTRIBUTE, .oid [1, 3, 6, 1, 5, 5, 7, 7, 34], IdentifyProofV2, (some .same)⟩,
   ⟨.CMS_ATTRIBUTE, .oid [1, 3, 6, 1, 5, 5, 7, 7, 4], OCTET_STRING, (some .same)⟩,
   ⟨.CMS_ATTRIBUTE, .oid [1, 3, 6, 1, 5, 5, 7, 7, 5], INTEGER, (some .same)⟩,
   ⟨.CMS_ATTRIBUTE, .oid [1, 3, 6, 1, 5, 5, 7, 7, 6], OCTET_STRING, (some .same)⟩,
   ⟨.CMS_ATTRIBUTE, .oid [1, 3, 6, 1, 5, 5, 7, 7, 7], OCTET_STRING, (some .same)⟩,
   ⟨.CMS_ATTRIBUTE, .oid [1, 3, 6, 1, 5, 5, 7, 7, 8], AddExtensions, (some .same)⟩,
   ⟨.CMS_ATTRIBUTE, .oid [1, 3, 6, 1, 5, 5, 7, 7, 9], EncryptedPOP, (some .relaxed)⟩,
   ⟨.CMS_ATTRIBUTE, .oid [1, 3, 6, 1, 5, 5, 7, 7, 10], DecryptedPOP, (some .same)⟩,
   ⟨.CMS_ATTRIBUTE, .oid [1, 3, 6, 1, 5, 5, 7, 7, 11], LraPopWitness, (some .same)⟩,
   ⟨.CMS_ATTRIBUTE, .oid [1, 3, 6, 1, 5, 5, 7, 7, 15], GetCert, (some .same)⟩,
   ⟨.CMS_ATTRIBUTE, .oid [1, 3, 6, 1, 5, 5, 7, 7, 16], GetCRL, (some .same)⟩,
   ⟨.CMS_ATTRIBUTE, .oid [1, 3, 6, 1, 5, 5, 7, 7, 17], RevokeRequest, (some .same)⟩,
   ⟨.CMS_ATTRIBUTE, .oid [1, 3, 6, 1, 5, 5, 7, 7, 18], OCTET_STRING, (some .same)⟩,
   ⟨.CMS_ATTRIBUTE, .oid [1, 3, 6, 1, 5, 5, 7, 7, 19], OCTET_STRING, (some .same)⟩,
   ⟨.CMS_ATTRIBUTE, .oid [1, 3, 6, 1, 5, 5, 7, 7, 21], OCTET_STRING, (some .same)⟩,
   ⟨.CMS_ATTRIBUTE, .oid [1, 3, 6, 1, 5, 5, 7, 7, 22], OCTET_STRING, (some .same)⟩,
   ⟨.CMS_ATTRIBUTE, .oid [1, 3, 6, 1, 5, 5, 7, 7, 23], OCTET_STRING, (some .same)⟩,
   ⟨.CMS_ATTRIBUTE, .oid [1, 3, 6, 1, 5, 5, 7, 7, 33], PopLinkWitnessV2, (some .same)⟩,
   ⟨.CMS_ATTRIBUTE, .oid [1, 3, 6, 1, 5, 5, 7, 7, 24], CMCCertId, (some .same)⟩,
   ⟨.CMS_ATTRIBUTE, .oid [1, 3, 6, 1, 5, 5, 7, 7, 26], PublishTrustAnchors, (some .same)⟩,
   ⟨.CMS_ATTRIBUTE, .oid [1, 3, 6, 1, 5, 5, 7, 7, 27], AuthPublish, (some .same)⟩,
   ⟨.CMS_ATTRIBUTE, .oid [1, 3, 6, 1, 5, 5, 7, 7, 28], BodyPartList, (some .same)⟩,
   ⟨.CMS_ATTRIBUTE, .oid [1, 3, 6, 1, 5, 5, 7, 7, 29], BodyPartList, (some .same)⟩,
   ⟨.CMS_ATTRIBUTE, .oid [1, 3, 6, 1, 5, 5, 7, 7, 30], CMCPublicationInfo, (some .relaxed)⟩,
   ⟨.CMS_ATTRIBUTE, .oid [1, 3, 6, 1, 5, 5, 7, 7, 31], ModCertTemplate, (some .same)⟩,
   ⟨.CMS_ATTRIBUTE, .oid [1, 3, 6, 1, 5, 5, 7, 7, 32], ControlsProcessed, (some .relaxed)⟩,
   ⟨.CMS_ATTRIBUTE, .oid [1, 2, 840, 113549, 1, 9, 14], ExtensionReq, (some .same)⟩,
   ⟨.CONTENT_TYPE, .oid [1, 3, 6, 1, 5, 5, 7, 12, 2], PKIData, (some .relaxed)⟩,
   ⟨.CONTENT_TYPE, .oid [1, 3, 6, 1, 5, 5, 7, 12, 3], PKIResponse, (some .relaxed)⟩,
   ⟨.CMS_ATTRIBUTE, .oid [1, 3, 6, 1, 5, 5, 7, 7, 35], BodyPartPath, none⟩,
   ⟨.CMS_ATTRIBUTE, .oid [1, 3, 6, 1, 5, 5, 7, 7, 37], BodyPartPath, none⟩]

def unlisted : List (ObjClass × Val) :=
  []

def registered : Objects := ⟨Verif.Rfc6402.asModule, objects, unlisted⟩

end Rfc6402
end Std
end Verif
