import Verif.Spec.Grade
import Verif.Gen.Rfc8494

/-! The ASN.1 of tools/std/rfc8494.asn1 (generated by tools/stdgen.py). -/

namespace Verif
namespace Std
namespace Rfc8494

open Asn1 Spec.X680

/-- `AlgorithmID-ShortForm ::=` -/
def AlgorithmID_ShortForm : Ty :=
  named [("zlibCompress", 0)] INTEGER

/-- `CompressionAlgorithmIdentifier ::=` -/
def CompressionAlgorithmIdentifier : Ty :=
  CHOICE [
    mandatory "algorithmID-ShortForm" (explicit .context 0 AlgorithmID_ShortForm),
    mandatory "algorithmID-OID" (explicit .context 1 OBJECT_IDENTIFIER)]

/-- `ContentType-ShortForm ::=` -/
def ContentType_ShortForm : Ty :=
  named [("unidentified", 0), ("external", 1), ("p1", 2), ("p3", 3), ("p7", 4), ("mule", 25)] INTEGER

/-- `CompressedContentInfo ::=` -/
def CompressedContentInfo : Ty :=
  SEQUENCE [
    mandatory "unnamed" (CHOICE [
      mandatory "contentType-ShortForm" (explicit .context 0 ContentType_ShortForm),
      mandatory "contentType-OID" (explicit .context 1 OBJECT_IDENTIFIER)]),
    mandatory "compressedContent" (explicit .context 0 OCTET_STRING)]

/-- `CompressedData ::=` -/
def CompressedData : Ty :=
  SEQUENCE [
    mandatory "compressionAlgorithm" CompressionAlgorithmIdentifier,
    mandatory "compressedContentInfo" CompressedContentInfo]

/-- Classes of rfc8494.py and the types of the standard they implement. -/
def entries : List Entry :=
  [⟨"rfc8494.AlgorithmID_ShortForm", Verif.Rfc8494.AlgorithmID_ShortForm, AlgorithmID_ShortForm, .same, false⟩,
   ⟨"rfc8494.ContentType_ShortForm", Verif.Rfc8494.ContentType_ShortForm, ContentType_ShortForm, .same, false⟩,
   ⟨"rfc8494.CompressedContentInfo", Verif.Rfc8494.CompressedContentInfo, CompressedContentInfo, .same, false⟩,
   ⟨"rfc8494.CompressionAlgorithmIdentifier", Verif.Rfc8494.CompressionAlgorithmIdentifier, CompressionAlgorithmIdentifier, .same, false⟩,
   ⟨"rfc8494.CompressedData", Verif.Rfc8494.CompressedData, CompressedData, .same, false⟩]

/-- Classes of rfc8494.py the transcription of the standard has no type for. -/
def beyond : List String :=
  []

/-- Constants of rfc8494.py and the values the standard gives them. -/
def constants : List Constant :=
  [⟨"rfc8494.id_mmhs_CDT", Verif.Rfc8494.id_mmhs_CDT, OBJECT_IDENTIFIER, .oid [1, 3, 26, 0, 4406, 0, 4, 2], true⟩]

/-- Constants of rfc8494.py the transcription of the standard has no value for. -/
def others : List String :=
  []

def standard : Standard := ⟨Verif.Rfc8494.asModule, entries, beyond, constants, others⟩

end Rfc8494
end Std
end Verif
