import Verif.Spec.Grade
import Verif.Gen.Rfc7906
import Verif.Std.Rfc2634
import Verif.Std.Rfc4108
import Verif.Std.Rfc5280
import Verif.Std.Rfc5652
import Verif.Std.Rfc6010
import Verif.Std.Rfc6019
import Verif.Std.Rfc6032
import Verif.Std.Rfc7191

/-! The ASN.1 of tools/std/rfc7906.asn1 (generated by tools/stdgen.py). -/

namespace Verif
namespace Std
namespace Rfc7906

open Asn1 Spec.X680

/-- `KeyProvinceV2 ::=` -/
def KeyProvinceV2 : Ty :=
  OBJECT_IDENTIFIER

/-- `ShortTitle ::=` -/
def ShortTitle : Ty :=
  PrintableString

/-- `Manifest ::=` -/
def Manifest : Ty :=
  constrained (SIZE_MAX 1) (SEQUENCE_OF ShortTitle)

/-- `KeyAlgorithm ::=` -/
def KeyAlgorithm : Ty :=
  SEQUENCE [
    mandatory "keyAlg" OBJECT_IDENTIFIER,
    optional "checkWordAlg" (implicit .context 1 OBJECT_IDENTIFIER),
    optional "crcAlg" (implicit .context 2 OBJECT_IDENTIFIER)]

/-- `KeyPkgReceiver ::=` -/
def KeyPkgReceiver : Ty :=
  CHOICE [
    mandatory "sirEntity" (implicit .context 0 Std.Rfc7191.SIREntityName),
    mandatory "community" (implicit .context 1 Std.Rfc4108.CommunityIdentifier)]

/-- `KeyPkgReceiversV2 ::=` -/
def KeyPkgReceiversV2 : Ty :=
  constrained (SIZE_MAX 1) (SEQUENCE_OF KeyPkgReceiver)

/-- `CharEdition ::=` -/
def CharEdition : Ty :=
  PrintableString

/-- `CharEditionRange ::=` -/
def CharEditionRange : Ty :=
  SEQUENCE [
    mandatory "firstCharEdition" CharEdition,
    mandatory "lastCharEdition" CharEdition]

/-- `NumEdition ::=` -/
def NumEdition : Ty :=
  constrained (RANGE 0 308915776) INTEGER

/-- `NumEditionRange ::=` -/
def NumEditionRange : Ty :=
  SEQUENCE [
    mandatory "firstNumEdition" NumEdition,
    mandatory "lastNumEdition" NumEdition]

/-- `EditionID ::=` -/
def EditionID : Ty :=
  CHOICE [
    mandatory "char" (CHOICE [
      mandatory "charEdition" (implicit .context 1 CharEdition),
      mandatory "charEditionRange" (implicit .context 2 CharEditionRange)]),
    mandatory "num" (CHOICE [
      mandatory "numEdition" (implicit .context 3 NumEdition),
      mandatory "numEditionRange" (implicit .context 4 NumEditionRange)])]

/-- `Register ::=` -/
def Register : Ty :=
  constrained (RANGE 0 2147483647) INTEGER

/-- `RegisterRange ::=` -/
def RegisterRange : Ty :=
  SEQUENCE [
    mandatory "firstRegister" Register,
    mandatory "lastRegister" Register]

/-- `RegisterID ::=` -/
def RegisterID : Ty :=
  CHOICE [
    mandatory "register" (implicit .context 5 Register),
    mandatory "registerRange" (implicit .context 6 RegisterRange)]

/-- `SegmentNumber ::=` -/
def SegmentNumber : Ty :=
  constrained (RANGE 1 127) INTEGER

/-- `SegmentRange ::=` -/
def SegmentRange : Ty :=
  SEQUENCE [
    mandatory "firstSegment" SegmentNumber,
    mandatory "lastSegment" SegmentNumber]

/-- `SegmentID ::=` -/
def SegmentID : Ty :=
  CHOICE [
    mandatory "segmentNumber" (implicit .context 7 SegmentNumber),
    mandatory "segmentRange" (implicit .context 8 SegmentRange)]

/-- `TSECNomenclature ::=` -/
def TSECNomenclature : Ty :=
  SEQUENCE [
    mandatory "shortTitle" ShortTitle,
    optional "editionID" EditionID,
    optional "registerID" RegisterID,
    optional "segmentID" SegmentID]

/-- `KeyUse ::=` -/
def KeyUse : Ty :=
  named [("n-a", 0), ("ffk", 1), ("kek", 2), ("kpk", 3), ("msk", 4), ("qkek", 5), ("tek", 6), ("tsk", 7), ("trkek", 8), ("nfk", 9), ("effk", 10), ("ebfk", 11), ("aek", 12), ("wod", 13), ("kesk", 246), ("eik", 247), ("ask", 248), ("kmk", 249), ("rsk", 250), ("csk", 251), ("sak", 252), ("rgk", 253), ("cek", 254), ("exk", 255)] ENUMERATED

/-- `TransOp ::=` -/
def TransOp : Ty :=
  named [("transport", 1), ("operational", 2)] ENUMERATED

/-- `KeyDistPeriod ::=` -/
def KeyDistPeriod : Ty :=
  SEQUENCE [
    optional "doNotDistBefore" (implicit .context 0 Std.Rfc6019.BinaryTime),
    mandatory "doNotDistAfter" Std.Rfc6019.BinaryTime]

/-- `KeyValidityPeriod ::=` -/
def KeyValidityPeriod : Ty :=
  SEQUENCE [
    mandatory "doNotUseBefore" Std.Rfc6019.BinaryTime,
    optional "doNotUseAfter" Std.Rfc6019.BinaryTime]

/-- `KeyDuration ::=` -/
def KeyDuration : Ty :=
  CHOICE [
    mandatory "hours" (implicit .context 0 (constrained (RANGE 1 96) INTEGER)),
    mandatory "days" (constrained (RANGE 1 732) INTEGER),
    mandatory "weeks" (implicit .context 1 (constrained (RANGE 1 104) INTEGER)),
    mandatory "months" (implicit .context 2 (constrained (RANGE 1 72) INTEGER)),
    mandatory "years" (implicit .context 3 (constrained (RANGE 1 100) INTEGER))]

/-- `Classification ::=` -/
def Classification : Ty :=
  Std.Rfc2634.ESSSecurityLabel

/-- `SecurityAttribute ::=` -/
def SecurityAttribute : Ty :=
  constrained (RANGE_MAX 0) INTEGER

/-- `EnumeratedTag ::=` -/
def EnumeratedTag : Ty :=
  SEQUENCE [
    mandatory "tagName" OBJECT_IDENTIFIER,
    mandatory "attributeList" (SET_OF SecurityAttribute)]

/-- `FreeFormField ::=` -/
def FreeFormField : Ty :=
  CHOICE [
    mandatory "bitSetAttributes" BIT_STRING,
    mandatory "securityAttributes" (SET_OF SecurityAttribute)]

/-- `InformativeTag ::=` -/
def InformativeTag : Ty :=
  SEQUENCE [
    mandatory "tagName" OBJECT_IDENTIFIER,
    mandatory "attributes" FreeFormField]

/-- `SplitID ::=` -/
def SplitID : Ty :=
  SEQUENCE [
    mandatory "half" (named [("a", 0), ("b", 1)] ENUMERATED),
    optional "combineAlg" Std.Rfc5280.AlgorithmIdentifier]

/-- `KeyPkgType ::=` -/
def KeyPkgType : Ty :=
  OBJECT_IDENTIFIER

/-- `SignatureUsage ::=` -/
def SignatureUsage : Ty :=
  Std.Rfc6010.CMSContentConstraints

/-- `PkiPath ::=` -/
def PkiPath : Ty :=
  constrained (SIZE_MAX 1) (SEQUENCE_OF Std.Rfc5280.Certificate)

/-- Classes of rfc7906.py and the types of the standard they implement. -/
def entries : List Entry :=
  [⟨"rfc7906.ContentHints", Verif.Rfc7906.ContentHints, Std.Rfc2634.ContentHints, .same, false⟩,
   ⟨"rfc7906.SecurityPolicyIdentifier", Verif.Rfc7906.SecurityPolicyIdentifier, Std.Rfc2634.SecurityPolicyIdentifier, .same, false⟩,
   ⟨"rfc7906.SecurityClassification", Verif.Rfc7906.SecurityClassification, Std.Rfc2634.SecurityClassification, .same, false⟩,
   ⟨"rfc7906.ESSPrivacyMark", Verif.Rfc7906.ESSPrivacyMark, Std.Rfc2634.ESSPrivacyMark, .same, false⟩,
   ⟨"rfc7906.SecurityCategories", Verif.Rfc7906.SecurityCategories, Std.Rfc2634.SecurityCategories, (.rewritten (.list (Vals.cons (.record (Vals.cons (.oid [1, 3]) (Vals.cons (.octets [5, 0]) (Vals.nil)))) (Vals.nil)))), false⟩,
   ⟨"rfc7906.ESSSecurityLabel", Verif.Rfc7906.ESSSecurityLabel, Std.Rfc2634.ESSSecurityLabel, (.rewritten (.record (Vals.cons (.oid [1, 3]) (Vals.cons (.absent) (Vals.cons (.absent) (Vals.cons (.list (Vals.cons (.record (Vals.cons (.oid [1, 3]) (Vals.cons (.octets [5, 0]) (Vals.nil)))) (Vals.nil))) (Vals.nil))))))), false⟩,
   ⟨"rfc7906.CommunityIdentifier", Verif.Rfc7906.CommunityIdentifier, Std.Rfc4108.CommunityIdentifier, .same, false⟩,
   ⟨"rfc7906.CommunityIdentifiers", Verif.Rfc7906.CommunityIdentifiers, Std.Rfc4108.CommunityIdentifiers, .same, false⟩,
   ⟨"rfc7906.AlgorithmIdentifier", Verif.Rfc7906.AlgorithmIdentifier, Std.Rfc5280.AlgorithmIdentifier, .same, false⟩,
   ⟨"rfc7906.Name", Verif.Rfc7906.Name, Std.Rfc5280.Name, .same, false⟩,
   ⟨"rfc7906.Certificate", Verif.Rfc7906.Certificate, Std.Rfc5280.Certificate, .same, false⟩,
   ⟨"rfc7906.GeneralNames", Verif.Rfc7906.GeneralNames, Std.Rfc5280.GeneralNames, .same, false⟩,
   ⟨"rfc7906.GeneralName", Verif.Rfc7906.GeneralName, Std.Rfc5280.GeneralName, .same, false⟩,
   ⟨"rfc7906.SubjectInfoAccessSyntax", Verif.Rfc7906.SubjectInfoAccessSyntax, Std.Rfc5280.SubjectInfoAccessSyntax, .same, false⟩,
   ⟨"rfc7906.CMSContentConstraints", Verif.Rfc7906.CMSContentConstraints, Std.Rfc6010.CMSContentConstraints, .same, false⟩,
   ⟨"rfc7906.BinaryTime", Verif.Rfc7906.BinaryTime, Std.Rfc6019.BinaryTime, .same, false⟩,
   ⟨"rfc7906.BinarySigningTime", Verif.Rfc7906.BinarySigningTime, Std.Rfc6019.BinarySigningTime, .same, false⟩,
   ⟨"rfc7906.Attribute", Verif.Rfc7906.Attribute, Std.Rfc5652.Attribute, .same, false⟩,
   ⟨"rfc7906.CertificateSet", Verif.Rfc7906.CertificateSet, Std.Rfc5652.CertificateSet, .same, false⟩,
   ⟨"rfc7906.CertificateChoices", Verif.Rfc7906.CertificateChoices, Std.Rfc5652.CertificateChoices, .same, false⟩,
   ⟨"rfc7906.ContentType", Verif.Rfc7906.ContentType, Std.Rfc5652.ContentType, .same, false⟩,
   ⟨"rfc7906.MessageDigest", Verif.Rfc7906.MessageDigest, Std.Rfc5652.MessageDigest, .same, false⟩,
   ⟨"rfc7906.SIREntityName", Verif.Rfc7906.SIREntityName, Std.Rfc7191.SIREntityName, .same, false⟩,
   ⟨"rfc7906.KeyPkgIdentifierAndReceiptReq", Verif.Rfc7906.KeyPkgIdentifierAndReceiptReq, Std.Rfc7191.KeyPkgIdentifierAndReceiptReq, .same, false⟩,
   ⟨"rfc7906.KeyProvinceV2", Verif.Rfc7906.KeyProvinceV2, KeyProvinceV2, .same, false⟩,
   ⟨"rfc7906.ShortTitle", Verif.Rfc7906.ShortTitle, ShortTitle, .same, false⟩,
   ⟨"rfc7906.Manifest", Verif.Rfc7906.Manifest, Manifest, .same, false⟩,
   ⟨"rfc7906.KeyAlgorithm", Verif.Rfc7906.KeyAlgorithm, KeyAlgorithm, .same, false⟩,
   ⟨"rfc7906.KeyPkgReceiver", Verif.Rfc7906.KeyPkgReceiver, KeyPkgReceiver, .same, false⟩,
   ⟨"rfc7906.KeyPkgReceiversV2", Verif.Rfc7906.KeyPkgReceiversV2, KeyPkgReceiversV2, .same, false⟩,
   ⟨"rfc7906.CharEdition", Verif.Rfc7906.CharEdition, CharEdition, .same, false⟩,
   ⟨"rfc7906.CharEditionRange", Verif.Rfc7906.CharEditionRange, CharEditionRange, .same, false⟩,
   ⟨"rfc7906.NumEdition", Verif.Rfc7906.NumEdition, NumEdition, .same, false⟩,
   ⟨"rfc7906.NumEditionRange", Verif.Rfc7906.NumEditionRange, NumEditionRange, .same, false⟩,
   ⟨"rfc7906.EditionID", Verif.Rfc7906.EditionID, EditionID, .same, false⟩,
   ⟨"rfc7906.Register", Verif.Rfc7906.Register, Register, .same, false⟩,
   ⟨"rfc7906.RegisterRange", Verif.Rfc7906.RegisterRange, RegisterRange, .same, false⟩,
   ⟨"rfc7906.RegisterID", Verif.Rfc7906.RegisterID, RegisterID, .same, false⟩,
   ⟨"rfc7906.SegmentNumber", Verif.Rfc7906.SegmentNumber, SegmentNumber, .same, false⟩,
   ⟨"rfc7906.SegmentRange", Verif.Rfc7906.SegmentRange, SegmentRange, .same, false⟩,
   ⟨"rfc7906.SegmentID", Verif.Rfc7906.SegmentID, SegmentID, .same, false⟩,
   ⟨"rfc7906.TSECNomenclature", Verif.Rfc7906.TSECNomenclature, TSECNomenclature, .same, false⟩,
   ⟨"rfc7906.KeyUse", Verif.Rfc7906.KeyUse, KeyUse, .same, false⟩,
   ⟨"rfc7906.TransOp", Verif.Rfc7906.TransOp, TransOp, .same, false⟩,
   ⟨"rfc7906.KeyDistPeriod", Verif.Rfc7906.KeyDistPeriod, KeyDistPeriod, .same, false⟩,
   ⟨"rfc7906.KeyValidityPeriod", Verif.Rfc7906.KeyValidityPeriod, KeyValidityPeriod, .same, false⟩,
   ⟨"rfc7906.KeyDuration", Verif.Rfc7906.KeyDuration, KeyDuration, .same, false⟩,
   ⟨"rfc7906.SecurityAttribute", Verif.Rfc7906.SecurityAttribute, SecurityAttribute, .same, false⟩,
   ⟨"rfc7906.EnumeratedTag", Verif.Rfc7906.EnumeratedTag, EnumeratedTag, .same, false⟩,
   ⟨"rfc7906.FreeFormField", Verif.Rfc7906.FreeFormField, FreeFormField, .same, false⟩,
   ⟨"rfc7906.InformativeTag", Verif.Rfc7906.InformativeTag, InformativeTag, .same, false⟩,
   ⟨"rfc7906.Classification", Verif.Rfc7906.Classification, Classification, (.rewritten (.record (Vals.cons (.oid [1, 3]) (Vals.cons (.absent) (Vals.cons (.absent) (Vals.cons (.list (Vals.cons (.record (Vals.cons (.oid [1, 3]) (Vals.cons (.octets [5, 0]) (Vals.nil)))) (Vals.nil))) (Vals.nil))))))), false⟩,
   ⟨"rfc7906.SplitID", Verif.Rfc7906.SplitID, SplitID, .same, false⟩,
   ⟨"rfc7906.KeyPkgType", Verif.Rfc7906.KeyPkgType, KeyPkgType, .same, false⟩,
   ⟨"rfc7906.SignatureUsage", Verif.Rfc7906.SignatureUsage, SignatureUsage, .same, false⟩,
   ⟨"rfc7906.PkiPath", Verif.Rfc7906.PkiPath, PkiPath, .same, false⟩,
   ⟨"rfc7906.ContentDecryptKeyID", Verif.Rfc7906.ContentDecryptKeyID, Std.Rfc6032.ContentDecryptKeyID, .same, false⟩]

/-- Classes of rfc7906.py the transcription of the standard has no type for. -/
def beyond : List String :=
  ["rfc7906.KeyPurpose"]

/-- Constants of rfc7906.py and the values the standard gives them. -/
def constants : List Constant :=
  [⟨"rfc7906.id_aa_communityIdentifiers", Verif.Rfc7906.id_aa_communityIdentifiers, OBJECT_IDENTIFIER, .oid [1, 2, 840, 113549, 1, 9, 16, 2, 40], true⟩,
   ⟨"rfc7906.id_pkix", Verif.Rfc7906.id_pkix, OBJECT_IDENTIFIER, .oid [1, 3, 6, 1, 5, 5, 7], true⟩,
   ⟨"rfc7906.id_pe", Verif.Rfc7906.id_pe, OBJECT_IDENTIFIER, .oid [1, 3, 6, 1, 5, 5, 7, 1], true⟩,
   ⟨"rfc7906.id_pe_subjectInfoAccess", Verif.Rfc7906.id_pe_subjectInfoAccess, OBJECT_IDENTIFIER, .oid [1, 3, 6, 1, 5, 5, 7, 1, 11], true⟩,
   ⟨"rfc7906.id_aa_binarySigningTime", Verif.Rfc7906.id_aa_binarySigningTime, OBJECT_IDENTIFIER, .oid [1, 2, 840, 113549, 1, 9, 16, 2, 46], true⟩,
   ⟨"rfc7906.id_contentType", Verif.Rfc7906.id_contentType, OBJECT_IDENTIFIER, .oid [1, 2, 840, 113549, 1, 9, 3], true⟩,
   ⟨"rfc7906.id_messageDigest", Verif.Rfc7906.id_messageDigest, OBJECT_IDENTIFIER, .oid [1, 2, 840, 113549, 1, 9, 4], true⟩,
   ⟨"rfc7906.id_aa_KP_keyPkgIdAndReceiptReq", Verif.Rfc7906.id_aa_KP_keyPkgIdAndReceiptReq, OBJECT_IDENTIFIER, .oid [2, 16, 840, 1, 101, 2, 1, 5, 65], true⟩,
   ⟨"rfc7906.id_aa_KP_keyProvinceV2", Verif.Rfc7906.id_aa_KP_keyProvinceV2, OBJECT_IDENTIFIER, .oid [2, 16, 840, 1, 101, 2, 1, 5, 71], true⟩,
   ⟨"rfc7906.id_aa_KP_manifest", Verif.Rfc7906.id_aa_KP_manifest, OBJECT_IDENTIFIER, .oid [2, 16, 840, 1, 101, 2, 1, 5, 72], true⟩,
   ⟨"rfc7906.id_kma_keyAlgorithm", Verif.Rfc7906.id_kma_keyAlgorithm, OBJECT_IDENTIFIER, .oid [2, 16, 840, 1, 101, 2, 1, 13, 1], true⟩,
   ⟨"rfc7906.id_at_userCertificate", Verif.Rfc7906.id_at_userCertificate, OBJECT_IDENTIFIER, .oid [2, 5, 4, 36], true⟩,
   ⟨"rfc7906.id_kma_keyPkgReceiversV2", Verif.Rfc7906.id_kma_keyPkgReceiversV2, OBJECT_IDENTIFIER, .oid [2, 16, 840, 1, 101, 2, 1, 13, 16], true⟩,
   ⟨"rfc7906.id_kma_TSECNomenclature", Verif.Rfc7906.id_kma_TSECNomenclature, OBJECT_IDENTIFIER, .oid [2, 16, 840, 1, 101, 2, 1, 13, 3], true⟩,
   ⟨"rfc7906.id_kma_keyPurpose", Verif.Rfc7906.id_kma_keyPurpose, OBJECT_IDENTIFIER, .oid [2, 16, 840, 1, 101, 2, 1, 13, 13], true⟩,
   ⟨"rfc7906.id_kma_keyUse", Verif.Rfc7906.id_kma_keyUse, OBJECT_IDENTIFIER, .oid [2, 16, 840, 1, 101, 2, 1, 13, 14], true⟩,
   ⟨"rfc7906.id_kma_transportKey", Verif.Rfc7906.id_kma_transportKey, OBJECT_IDENTIFIER, .oid [2, 16, 840, 1, 101, 2, 1, 13, 15], true⟩,
   ⟨"rfc7906.id_kma_keyDistPeriod", Verif.Rfc7906.id_kma_keyDistPeriod, OBJECT_IDENTIFIER, .oid [2, 16, 840, 1, 101, 2, 1, 13, 5], true⟩,
   ⟨"rfc7906.id_kma_keyValidityPeriod", Verif.Rfc7906.id_kma_keyValidityPeriod, OBJECT_IDENTIFIER, .oid [2, 16, 840, 1, 101, 2, 1, 13, 6], true⟩,
   ⟨"rfc7906.id_kma_keyDuration", Verif.Rfc7906.id_kma_keyDuration, OBJECT_IDENTIFIER, .oid [2, 16, 840, 1, 101, 2, 1, 13, 7], true⟩,
   ⟨"rfc7906.ub_KeyDuration_months", Verif.Rfc7906.ub_KeyDuration_months, INTEGER, .int 72, true⟩,
   ⟨"rfc7906.ub_KeyDuration_hours", Verif.Rfc7906.ub_KeyDuration_hours, INTEGER, .int 96, true⟩,
   ⟨"rfc7906.ub_KeyDuration_days", Verif.Rfc7906.ub_KeyDuration_days, INTEGER, .int 732, true⟩,
   ⟨"rfc7906.ub_KeyDuration_weeks", Verif.Rfc7906.ub_KeyDuration_weeks, INTEGER, .int 104, true⟩,
   ⟨"rfc7906.ub_KeyDuration_years", Verif.Rfc7906.ub_KeyDuration_years, INTEGER, .int 100, true⟩,
   ⟨"rfc7906.id_kma_splitID", Verif.Rfc7906.id_kma_splitID, OBJECT_IDENTIFIER, .oid [2, 16, 840, 1, 101, 2, 1, 13, 11], true⟩,
   ⟨"rfc7906.id_kma_keyPkgType", Verif.Rfc7906.id_kma_keyPkgType, OBJECT_IDENTIFIER, .oid [2, 16, 840, 1, 101, 2, 1, 13, 12], true⟩,
   ⟨"rfc7906.id_kma_sigUsageV3", Verif.Rfc7906.id_kma_sigUsageV3, OBJECT_IDENTIFIER, .oid [2, 16, 840, 1, 101, 2, 1, 13, 22], true⟩,
   ⟨"rfc7906.id_kma_otherCertFormats", Verif.Rfc7906.id_kma_otherCertFormats, OBJECT_IDENTIFIER, .oid [2, 16, 840, 1, 101, 2, 1, 13, 19], true⟩,
   ⟨"rfc7906.id_at_pkiPath", Verif.Rfc7906.id_at_pkiPath, OBJECT_IDENTIFIER, .oid [2, 5, 4, 70], true⟩,
   ⟨"rfc7906.id_kma_usefulCerts", Verif.Rfc7906.id_kma_usefulCerts, OBJECT_IDENTIFIER, .oid [2, 16, 840, 1, 101, 2, 1, 13, 20], true⟩,
   ⟨"rfc7906.id_kma_keyWrapAlgorithm", Verif.Rfc7906.id_kma_keyWrapAlgorithm, OBJECT_IDENTIFIER, .oid [2, 16, 840, 1, 101, 2, 1, 13, 21], true⟩,
   ⟨"rfc7906.id_aa_KP_contentDecryptKeyID", Verif.Rfc7906.id_aa_KP_contentDecryptKeyID, OBJECT_IDENTIFIER, .oid [2, 16, 840, 1, 101, 2, 1, 5, 66], true⟩,
   ⟨"rfc7906.id_aa_KP_crlPointers", Verif.Rfc7906.id_aa_KP_crlPointers, OBJECT_IDENTIFIER, .oid [2, 16, 840, 1, 101, 2, 1, 5, 70], true⟩]

/-- Constants of rfc7906.py the transcription of the standard has no value for. -/
def others : List String :=
  ["rfc7906.id_aa_contentHint",
   "rfc7906.id_aa_securityLabel",
   "rfc7906.aa_keyUse",
   "rfc7906.id_aa_KP_classification",
   "rfc7906.id_enumeratedPermissiveAttributes",
   "rfc7906.id_enumeratedRestrictiveAttributes",
   "rfc7906.id_informativeAttributes",
   "rfc7906.aa_otherCertificateFormats",
   "rfc7906.id_errorCodes",
   "rfc7906.id_missingKeyType",
   "rfc7906.id_privacyMarkTooLong",
   "rfc7906.id_unrecognizedSecurityPolicy",
   "rfc7906.aa_keyProvince_v2",
   "rfc7906.aa_manifest",
   "rfc7906.aa_keyAlgorithm",
   "rfc7906.aa_userCertificate",
   "rfc7906.aa_keyPackageReceivers_v2",
   "rfc7906.aa_tsecNomenclature",
   "rfc7906.aa_keyPurpose",
   "rfc7906.aa_transportKey",
   "rfc7906.aa_keyDistributionPeriod",
   "rfc7906.aa_keyValidityPeriod",
   "rfc7906.aa_keyDurationPeriod",
   "rfc7906.aa_classification",
   "rfc7906.aa_splitIdentifier",
   "rfc7906.aa_keyPackageType",
   "rfc7906.aa_signatureUsage_v3",
   "rfc7906.aa_pkiPath",
   "rfc7906.aa_usefulCertificates",
   "rfc7906.aa_keyWrapAlgorithm",
   "rfc7906.aa_contentDecryptKeyIdentifier",
   "rfc7906.aa_certificatePointers",
   "rfc7906.aa_cRLDistributionPoints"]

def standard : Standard := ⟨Verif.Rfc7906.asModule, entries, beyond, constants, others⟩

end Rfc7906
end Std
end Verif
