import Verif.Spec.Grade
import Verif.Gen.Rfc2985
import Verif.Std.Rfc5280
import Verif.Std.Rfc5652
import Verif.Std.Rfc5958
import Verif.Std.Rfc7292

/-! The ASN.1 of tools/std/rfc2985.asn1 (generated by tools/stdgen.py). -/

namespace Verif
namespace Std
namespace Rfc2985

open Asn1 Spec.X680

/-- `RandomNonce ::=` -/
def RandomNonce : Ty :=
  constrained (SIZE_MAX 4) OCTET_STRING

/-- `SequenceNumber ::=` -/
def SequenceNumber : Ty :=
  constrained (RANGE_MAX 1) INTEGER

/-- `ExtensionRequest ::=` -/
def ExtensionRequest : Ty :=
  Std.Rfc5280.Extensions

/-- Classes of rfc2985.py and the types of the standard they implement. -/
def entries : List Entry :=
  [⟨"rfc2985.AlgorithmIdentifier", Verif.Rfc2985.AlgorithmIdentifier, Std.Rfc5280.AlgorithmIdentifier, .same, false⟩,
   ⟨"rfc2985.Attribute", Verif.Rfc2985.Attribute, Std.Rfc5280.Attribute, .same, false⟩,
   ⟨"rfc2985.EmailAddress", Verif.Rfc2985.EmailAddress, Std.Rfc5280.EmailAddress, .same, false⟩,
   ⟨"rfc2985.Extensions", Verif.Rfc2985.Extensions, Std.Rfc5280.Extensions, .same, false⟩,
   ⟨"rfc2985.Time", Verif.Rfc2985.Time, Std.Rfc5280.Time, .same, false⟩,
   ⟨"rfc2985.X520countryName", Verif.Rfc2985.X520countryName, Std.Rfc5280.X520countryName, .same, false⟩,
   ⟨"rfc2985.X520SerialNumber", Verif.Rfc2985.X520SerialNumber, Std.Rfc5280.X520SerialNumber, .same, false⟩,
   ⟨"rfc2985.ContentInfo", Verif.Rfc2985.ContentInfo, Std.Rfc5652.ContentInfo, .same, false⟩,
   ⟨"rfc2985.ContentType", Verif.Rfc2985.ContentType, Std.Rfc5652.ContentType, .same, false⟩,
   ⟨"rfc2985.Countersignature", Verif.Rfc2985.Countersignature, Std.Rfc5652.Countersignature, .same, false⟩,
   ⟨"rfc2985.MessageDigest", Verif.Rfc2985.MessageDigest, Std.Rfc5652.MessageDigest, .same, false⟩,
   ⟨"rfc2985.SignerInfo", Verif.Rfc2985.SignerInfo, Std.Rfc5652.SignerInfo, .same, false⟩,
   ⟨"rfc2985.SigningTime", Verif.Rfc2985.SigningTime, Std.Rfc5652.SigningTime, .same, false⟩,
   ⟨"rfc2985.EncryptedPrivateKeyInfo", Verif.Rfc2985.EncryptedPrivateKeyInfo, Std.Rfc5958.EncryptedPrivateKeyInfo, .same, false⟩,
   ⟨"rfc2985.PFX", Verif.Rfc2985.PFX, Std.Rfc7292.PFX, (.refused [48, 8, 2, 1, 0, 48, 3, 6, 1, 43]), false⟩,
   ⟨"rfc2985.AttributeType", Verif.Rfc2985.AttributeType, Std.Rfc5280.AttributeType, .same, false⟩,
   ⟨"rfc2985.AttributeValue", Verif.Rfc2985.AttributeValue, Std.Rfc5280.AttributeValue, .same, false⟩,
   ⟨"rfc2985.RandomNonce", Verif.Rfc2985.RandomNonce, RandomNonce, .same, false⟩,
   ⟨"rfc2985.SequenceNumber", Verif.Rfc2985.SequenceNumber, SequenceNumber, .same, false⟩,
   ⟨"rfc2985.ExtensionRequest", Verif.Rfc2985.ExtensionRequest, ExtensionRequest, .same, false⟩]

/-- Classes of rfc2985.py the transcription of the standard has no type for. -/
def beyond : List String :=
  ["rfc2985.AttributeValues",
   "rfc2985.SingleAttributeValues",
   "rfc2985.SingleAttribute",
   "rfc2985.CMSAttribute",
   "rfc2985.CMSSingleAttribute",
   "rfc2985.DirectoryString",
   "rfc2985.PKCS9String",
   "rfc2985.GenderString",
   "rfc2985.AttributeSet",
   "rfc2985.FriendlyName",
   "rfc2985.SMIMECapability",
   "rfc2985.SMIMECapabilities"]

/-- Constants of rfc2985.py and the values the standard gives them. -/
def constants : List Constant :=
  [⟨"rfc2985.pkcs_9_ub_pkcs9String", Verif.Rfc2985.pkcs_9_ub_pkcs9String, INTEGER, .int 255, true⟩,
   ⟨"rfc2985.pkcs_9_ub_challengePassword", Verif.Rfc2985.pkcs_9_ub_challengePassword, INTEGER, .int 255, true⟩,
   ⟨"rfc2985.pkcs_9_ub_emailAddress", Verif.Rfc2985.pkcs_9_ub_emailAddress, INTEGER, .int 255, true⟩,
   ⟨"rfc2985.pkcs_9_ub_friendlyName", Verif.Rfc2985.pkcs_9_ub_friendlyName, INTEGER, .int 255, true⟩,
   ⟨"rfc2985.pkcs_9_ub_match", Verif.Rfc2985.pkcs_9_ub_match, INTEGER, .int 255, true⟩,
   ⟨"rfc2985.pkcs_9_ub_signingDescription", Verif.Rfc2985.pkcs_9_ub_signingDescription, INTEGER, .int 255, true⟩,
   ⟨"rfc2985.pkcs_9_ub_unstructuredAddress", Verif.Rfc2985.pkcs_9_ub_unstructuredAddress, INTEGER, .int 255, true⟩,
   ⟨"rfc2985.pkcs_9_ub_unstructuredName", Verif.Rfc2985.pkcs_9_ub_unstructuredName, INTEGER, .int 255, true⟩,
   ⟨"rfc2985.ub_name", Verif.Rfc2985.ub_name, INTEGER, .int 32768, true⟩,
   ⟨"rfc2985.pkcs_9_ub_placeOfBirth", Verif.Rfc2985.pkcs_9_ub_placeOfBirth, INTEGER, .int 32768, true⟩,
   ⟨"rfc2985.pkcs_9_ub_pseudonym", Verif.Rfc2985.pkcs_9_ub_pseudonym, INTEGER, .int 32768, true⟩,
   ⟨"rfc2985.ietf_at", Verif.Rfc2985.ietf_at, OBJECT_IDENTIFIER, .oid [1, 3, 6, 1, 5, 5, 7, 9], true⟩,
   ⟨"rfc2985.id_at", Verif.Rfc2985.id_at, OBJECT_IDENTIFIER, .oid [2, 5, 4], true⟩,
   ⟨"rfc2985.pkcs_9", Verif.Rfc2985.pkcs_9, OBJECT_IDENTIFIER, .oid [1, 2, 840, 113549, 1, 9], true⟩,
   ⟨"rfc2985.pkcs_9_mo", Verif.Rfc2985.pkcs_9_mo, OBJECT_IDENTIFIER, .oid [1, 2, 840, 113549, 1, 9, 0], true⟩,
   ⟨"rfc2985.smime", Verif.Rfc2985.smime, OBJECT_IDENTIFIER, .oid [1, 2, 840, 113549, 1, 9, 16], true⟩,
   ⟨"rfc2985.certTypes", Verif.Rfc2985.certTypes, OBJECT_IDENTIFIER, .oid [1, 2, 840, 113549, 1, 9, 22], true⟩,
   ⟨"rfc2985.crlTypes", Verif.Rfc2985.crlTypes, OBJECT_IDENTIFIER, .oid [1, 2, 840, 113549, 1, 9, 23], true⟩,
   ⟨"rfc2985.pkcs_9_oc", Verif.Rfc2985.pkcs_9_oc, OBJECT_IDENTIFIER, .oid [1, 2, 840, 113549, 1, 9, 24], true⟩,
   ⟨"rfc2985.pkcs_9_at", Verif.Rfc2985.pkcs_9_at, OBJECT_IDENTIFIER, .oid [1, 2, 840, 113549, 1, 9, 25], true⟩,
   ⟨"rfc2985.pkcs_9_sx", Verif.Rfc2985.pkcs_9_sx, OBJECT_IDENTIFIER, .oid [1, 2, 840, 113549, 1, 9, 26], true⟩,
   ⟨"rfc2985.pkcs_9_mr", Verif.Rfc2985.pkcs_9_mr, OBJECT_IDENTIFIER, .oid [1, 2, 840, 113549, 1, 9, 27], true⟩,
   ⟨"rfc2985.pkcs_9_sx_pkcs9String", Verif.Rfc2985.pkcs_9_sx_pkcs9String, OBJECT_IDENTIFIER, .oid [1, 2, 840, 113549, 1, 9, 26, 1], true⟩,
   ⟨"rfc2985.pkcs_9_sx_signingTime", Verif.Rfc2985.pkcs_9_sx_signingTime, OBJECT_IDENTIFIER, .oid [1, 2, 840, 113549, 1, 9, 26, 2], true⟩,
   ⟨"rfc2985.pkcs_9_oc_pkcsEntity", Verif.Rfc2985.pkcs_9_oc_pkcsEntity, OBJECT_IDENTIFIER, .oid [1, 2, 840, 113549, 1, 9, 24, 1], true⟩,
   ⟨"rfc2985.pkcs_9_oc_naturalPerson", Verif.Rfc2985.pkcs_9_oc_naturalPerson, OBJECT_IDENTIFIER, .oid [1, 2, 840, 113549, 1, 9, 24, 2], true⟩,
   ⟨"rfc2985.pkcs_9_mr_caseIgnoreMatch", Verif.Rfc2985.pkcs_9_mr_caseIgnoreMatch, OBJECT_IDENTIFIER, .oid [1, 2, 840, 113549, 1, 9, 27, 1], true⟩,
   ⟨"rfc2985.pkcs_9_mr_signingTimeMatch", Verif.Rfc2985.pkcs_9_mr_signingTimeMatch, OBJECT_IDENTIFIER, .oid [1, 2, 840, 113549, 1, 9, 27, 2], true⟩,
   ⟨"rfc2985.pkcs_9_at_pkcs7PDU", Verif.Rfc2985.pkcs_9_at_pkcs7PDU, OBJECT_IDENTIFIER, .oid [1, 2, 840, 113549, 1, 9, 25, 5], true⟩,
   ⟨"rfc2985.pkcs_9_at_userPKCS12", Verif.Rfc2985.pkcs_9_at_userPKCS12, OBJECT_IDENTIFIER, .oid [2, 16, 840, 1, 113730, 3, 1, 216], true⟩,
   ⟨"rfc2985.pkcs_9_at_pkcs15Token", Verif.Rfc2985.pkcs_9_at_pkcs15Token, OBJECT_IDENTIFIER, .oid [1, 2, 840, 113549, 1, 9, 25, 1], true⟩,
   ⟨"rfc2985.pkcs_9_at_encryptedPrivateKeyInfo", Verif.Rfc2985.pkcs_9_at_encryptedPrivateKeyInfo, OBJECT_IDENTIFIER, .oid [1, 2, 840, 113549, 1, 9, 25, 2], true⟩,
   ⟨"rfc2985.pkcs_9_at_emailAddress", Verif.Rfc2985.pkcs_9_at_emailAddress, OBJECT_IDENTIFIER, .oid [1, 2, 840, 113549, 1, 9, 1], true⟩,
   ⟨"rfc2985.pkcs_9_at_unstructuredName", Verif.Rfc2985.pkcs_9_at_unstructuredName, OBJECT_IDENTIFIER, .oid [1, 2, 840, 113549, 1, 9, 2], true⟩,
   ⟨"rfc2985.pkcs_9_at_unstructuredAddress", Verif.Rfc2985.pkcs_9_at_unstructuredAddress, OBJECT_IDENTIFIER, .oid [1, 2, 840, 113549, 1, 9, 8], true⟩,
   ⟨"rfc2985.pkcs_9_at_dateOfBirth", Verif.Rfc2985.pkcs_9_at_dateOfBirth, OBJECT_IDENTIFIER, .oid [1, 3, 6, 1, 5, 5, 7, 9, 1], true⟩,
   ⟨"rfc2985.pkcs_9_at_placeOfBirth", Verif.Rfc2985.pkcs_9_at_placeOfBirth, OBJECT_IDENTIFIER, .oid [1, 3, 6, 1, 5, 5, 7, 9, 2], true⟩,
   ⟨"rfc2985.pkcs_9_at_gender", Verif.Rfc2985.pkcs_9_at_gender, OBJECT_IDENTIFIER, .oid [1, 3, 6, 1, 5, 5, 7, 9, 3], true⟩,
   ⟨"rfc2985.pkcs_9_at_countryOfCitizenship", Verif.Rfc2985.pkcs_9_at_countryOfCitizenship, OBJECT_IDENTIFIER, .oid [1, 3, 6, 1, 5, 5, 7, 9, 4], true⟩,
   ⟨"rfc2985.pkcs_9_at_countryOfResidence", Verif.Rfc2985.pkcs_9_at_countryOfResidence, OBJECT_IDENTIFIER, .oid [1, 3, 6, 1, 5, 5, 7, 9, 5], true⟩,
   ⟨"rfc2985.id_at_pseudonym", Verif.Rfc2985.id_at_pseudonym, OBJECT_IDENTIFIER, .oid [2, 5, 4, 65], true⟩,
   ⟨"rfc2985.id_at_serialNumber", Verif.Rfc2985.id_at_serialNumber, OBJECT_IDENTIFIER, .oid [2, 5, 4, 5], true⟩,
   ⟨"rfc2985.pkcs_9_at_contentType", Verif.Rfc2985.pkcs_9_at_contentType, OBJECT_IDENTIFIER, .oid [1, 2, 840, 113549, 1, 9, 3], true⟩,
   ⟨"rfc2985.pkcs_9_at_messageDigest", Verif.Rfc2985.pkcs_9_at_messageDigest, OBJECT_IDENTIFIER, .oid [1, 2, 840, 113549, 1, 9, 4], true⟩,
   ⟨"rfc2985.pkcs_9_at_signingTime", Verif.Rfc2985.pkcs_9_at_signingTime, OBJECT_IDENTIFIER, .oid [1, 2, 840, 113549, 1, 9, 5], true⟩,
   ⟨"rfc2985.pkcs_9_at_randomNonce", Verif.Rfc2985.pkcs_9_at_randomNonce, OBJECT_IDENTIFIER, .oid [1, 2, 840, 113549, 1, 9, 25, 3], true⟩,
   ⟨"rfc2985.pkcs_9_at_sequenceNumber", Verif.Rfc2985.pkcs_9_at_sequenceNumber, OBJECT_IDENTIFIER, .oid [1, 2, 840, 113549, 1, 9, 25, 4], true⟩,
   ⟨"rfc2985.pkcs_9_at_counterSignature", Verif.Rfc2985.pkcs_9_at_counterSignature, OBJECT_IDENTIFIER, .oid [1, 2, 840, 113549, 1, 9, 6], true⟩,
   ⟨"rfc2985.pkcs_9_at_challengePassword", Verif.Rfc2985.pkcs_9_at_challengePassword, OBJECT_IDENTIFIER, .oid [1, 2, 840, 113549, 1, 9, 7], true⟩,
   ⟨"rfc2985.pkcs_9_at_extensionRequest", Verif.Rfc2985.pkcs_9_at_extensionRequest, OBJECT_IDENTIFIER, .oid [1, 2, 840, 113549, 1, 9, 14], true⟩,
   ⟨"rfc2985.pkcs_9_at_extendedCertificateAttributes", Verif.Rfc2985.pkcs_9_at_extendedCertificateAttributes, OBJECT_IDENTIFIER, .oid [1, 2, 840, 113549, 1, 9, 9], true⟩,
   ⟨"rfc2985.pkcs_9_at_friendlyName", Verif.Rfc2985.pkcs_9_at_friendlyName, OBJECT_IDENTIFIER, .oid [1, 2, 840, 113549, 1, 9, 20], true⟩,
   ⟨"rfc2985.pkcs_9_at_localKeyId", Verif.Rfc2985.pkcs_9_at_localKeyId, OBJECT_IDENTIFIER, .oid [1, 2, 840, 113549, 1, 9, 21], true⟩,
   ⟨"rfc2985.pkcs_9_at_signingDescription", Verif.Rfc2985.pkcs_9_at_signingDescription, OBJECT_IDENTIFIER, .oid [1, 2, 840, 113549, 1, 9, 13], true⟩,
   ⟨"rfc2985.pkcs_9_at_smimeCapabilities", Verif.Rfc2985.pkcs_9_at_smimeCapabilities, OBJECT_IDENTIFIER, .oid [1, 2, 840, 113549, 1, 9, 15], true⟩]

/-- Constants of rfc2985.py the transcription of the standard has no value for. -/
def others : List String :=
  ["rfc2985.pKCS7PDU",
   "rfc2985.userPKCS12",
   "rfc2985.encryptedPrivateKeyInfo",
   "rfc2985.emailAddress",
   "rfc2985.unstructuredName",
   "rfc2985.unstructuredAddress",
   "rfc2985.dateOfBirth",
   "rfc2985.placeOfBirth",
   "rfc2985.gender",
   "rfc2985.countryOfCitizenship",
   "rfc2985.countryOfResidence",
   "rfc2985.pseudonym",
   "rfc2985.serialNumber",
   "rfc2985.contentType",
   "rfc2985.messageDigest",
   "rfc2985.signingTime",
   "rfc2985.randomNonce",
   "rfc2985.sequenceNumber",
   "rfc2985.counterSignature",
   "rfc2985.challengePassword",
   "rfc2985.extensionRequest",
   "rfc2985.extendedCertificateAttributes",
   "rfc2985.friendlyName",
   "rfc2985.localKeyId",
   "rfc2985.signingDescription",
   "rfc2985.smimeCapabilities"]

def standard : Standard := ⟨Verif.Rfc2985.asModule, entries, beyond, constants, others⟩

end Rfc2985
end Std
end Verif
