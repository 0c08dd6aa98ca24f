import Verif.Spec.Grade
import Verif.Gen.Rfc3709
import Verif.Std.Rfc5280

/-! The ASN.1 of tools/std/rfc3709.asn1 (generated by tools/stdgen.py). -/

namespace Verif
namespace Std
namespace Rfc3709

open Asn1 Spec.X680

/-- `HashAlgAndValue ::=` -/
def HashAlgAndValue : Ty :=
  SEQUENCE [
    mandatory "hashAlg" Std.Rfc5280.AlgorithmIdentifier,
    mandatory "hashValue" OCTET_STRING]

/-- `LogotypeDetails ::=` -/
def LogotypeDetails : Ty :=
  SEQUENCE [
    mandatory "mediaType" IA5String,
    mandatory "logotypeHash" (constrained (SIZE_MAX 1) (SEQUENCE_OF HashAlgAndValue)),
    mandatory "logotypeURI" (constrained (SIZE_MAX 1) (SEQUENCE_OF IA5String))]

/-- `LogotypeImageType ::=` -/
def LogotypeImageType : Ty :=
  named [("grayScale", 0), ("color", 1)] INTEGER

/-- `LogotypeImageResolution ::=` -/
def LogotypeImageResolution : Ty :=
  CHOICE [
    mandatory "numBits" (implicit .context 1 INTEGER),
    mandatory "tableSize" (implicit .context 2 INTEGER)]

/-- `LogotypeImageInfo ::=` -/
def LogotypeImageInfo : Ty :=
  SEQUENCE [
    default "type" (implicit .context 0 LogotypeImageType) (.int 1),
    mandatory "fileSize" INTEGER,
    mandatory "xSize" INTEGER,
    mandatory "ySize" INTEGER,
    optional "resolution" LogotypeImageResolution,
    optional "language" (implicit .context 4 IA5String)]

/-- `LogotypeImage ::=` -/
def LogotypeImage : Ty :=
  SEQUENCE [
    mandatory "imageDetails" LogotypeDetails,
    optional "imageInfo" LogotypeImageInfo]

/-- `LogotypeAudioInfo ::=` -/
def LogotypeAudioInfo : Ty :=
  SEQUENCE [
    mandatory "fileSize" INTEGER,
    mandatory "playTime" INTEGER,
    mandatory "channels" INTEGER,
    optional "sampleRate" (implicit .context 3 INTEGER),
    optional "language" (implicit .context 4 IA5String)]

/-- `LogotypeAudio ::=` -/
def LogotypeAudio : Ty :=
  SEQUENCE [
    mandatory "audioDetails" LogotypeDetails,
    optional "audioInfo" LogotypeAudioInfo]

/-- `LogotypeData ::=` -/
def LogotypeData : Ty :=
  SEQUENCE [
    optional "image" (SEQUENCE_OF LogotypeImage),
    optional "audio" (implicit .context 1 (SEQUENCE_OF LogotypeAudio))]

/-- `LogotypeReference ::=` -/
def LogotypeReference : Ty :=
  SEQUENCE [
    mandatory "refStructHash" (constrained (SIZE_MAX 1) (SEQUENCE_OF HashAlgAndValue)),
    mandatory "refStructURI" (constrained (SIZE_MAX 1) (SEQUENCE_OF IA5String))]

/-- `LogotypeInfo ::=` -/
def LogotypeInfo : Ty :=
  CHOICE [
    mandatory "direct" (implicit .context 0 LogotypeData),
    mandatory "indirect" (implicit .context 1 LogotypeReference)]

/-- `OtherLogotypeInfo ::=` -/
def OtherLogotypeInfo : Ty :=
  SEQUENCE [
    mandatory "logotypeType" OBJECT_IDENTIFIER,
    mandatory "info" LogotypeInfo]

/-- `LogotypeExtn ::=` -/
def LogotypeExtn : Ty :=
  SEQUENCE [
    optional "communityLogos" (explicit .context 0 (SEQUENCE_OF LogotypeInfo)),
    optional "issuerLogo" (explicit .context 1 LogotypeInfo),
    optional "subjectLogo" (explicit .context 2 LogotypeInfo),
    optional "otherLogos" (explicit .context 3 (SEQUENCE_OF OtherLogotypeInfo))]

/-- Classes of rfc3709.py and the types of the standard they implement. -/
def entries : List Entry :=
  [⟨"rfc3709.HashAlgAndValue", Verif.Rfc3709.HashAlgAndValue, HashAlgAndValue, .same, false⟩,
   ⟨"rfc3709.LogotypeDetails", Verif.Rfc3709.LogotypeDetails, LogotypeDetails, .same, false⟩,
   ⟨"rfc3709.LogotypeAudioInfo", Verif.Rfc3709.LogotypeAudioInfo, LogotypeAudioInfo, .same, false⟩,
   ⟨"rfc3709.LogotypeAudio", Verif.Rfc3709.LogotypeAudio, LogotypeAudio, .same, false⟩,
   ⟨"rfc3709.LogotypeImageType", Verif.Rfc3709.LogotypeImageType, LogotypeImageType, .same, false⟩,
   ⟨"rfc3709.LogotypeImageResolution", Verif.Rfc3709.LogotypeImageResolution, LogotypeImageResolution, .same, false⟩,
   ⟨"rfc3709.LogotypeImageInfo", Verif.Rfc3709.LogotypeImageInfo, LogotypeImageInfo, .same, false⟩,
   ⟨"rfc3709.LogotypeImage", Verif.Rfc3709.LogotypeImage, LogotypeImage, .same, false⟩,
   ⟨"rfc3709.LogotypeData", Verif.Rfc3709.LogotypeData, LogotypeData, .same, false⟩,
   ⟨"rfc3709.LogotypeReference", Verif.Rfc3709.LogotypeReference, LogotypeReference, .same, false⟩,
   ⟨"rfc3709.LogotypeInfo", Verif.Rfc3709.LogotypeInfo, LogotypeInfo, .same, false⟩,
   ⟨"rfc3709.OtherLogotypeInfo", Verif.Rfc3709.OtherLogotypeInfo, OtherLogotypeInfo, .same, false⟩,
   ⟨"rfc3709.LogotypeExtn", Verif.Rfc3709.LogotypeExtn, LogotypeExtn, .same, false⟩]

/-- Classes of rfc3709.py the transcription of the standard has no type for. -/
def beyond : List String :=
  []

/-- Constants of rfc3709.py and the values the standard gives them. -/
def constants : List Constant :=
  [⟨"rfc3709.id_logo_background", Verif.Rfc3709.id_logo_background, OBJECT_IDENTIFIER, .oid [1, 3, 6, 1, 5, 5, 7, 20, 2], true⟩,
   ⟨"rfc3709.id_logo_loyalty", Verif.Rfc3709.id_logo_loyalty, OBJECT_IDENTIFIER, .oid [1, 3, 6, 1, 5, 5, 7, 20, 1], true⟩,
   ⟨"rfc3709.id_logo_certImage", Verif.Rfc3709.id_logo_certImage, OBJECT_IDENTIFIER, .oid [1, 3, 6, 1, 5, 5, 7, 20, 3], true⟩,
   ⟨"rfc3709.id_pe_logotype", Verif.Rfc3709.id_pe_logotype, OBJECT_IDENTIFIER, .oid [1, 3, 6, 1, 5, 5, 7, 1, 12], true⟩]

/-- Constants of rfc3709.py the transcription of the standard has no value for. -/
def others : List String :=
  []

def standard : Standard := ⟨Verif.Rfc3709.asModule, entries, beyond, constants, others⟩

end Rfc3709
end Std
end Verif
