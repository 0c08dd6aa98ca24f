import Verif.Spec.Grade
import Verif.Gen.Rfc7191
import Verif.Std.Rfc5280

/-! The ASN.1 of tools/std/rfc7191.asn1 (generated by tools/stdgen.py). -/

namespace Verif
namespace Std
namespace Rfc7191

open Asn1 Spec.X680

/-- `KeyPkgID ::=` -/
def KeyPkgID : Ty :=
  OCTET_STRING

/-- `SIREntityNameType ::=` -/
def SIREntityNameType : Ty :=
  OBJECT_IDENTIFIER

/-- `SIREntityName ::=` -/
def SIREntityName : Ty :=
  SEQUENCE [
    mandatory "sirenType" SIREntityNameType,
    mandatory "sirenValue" OCTET_STRING]

/-- `SIREntityNames ::=` -/
def SIREntityNames : Ty :=
  constrained (SIZE_MAX 1) (SEQUENCE_OF SIREntityName)

/-- `KeyPkgReceiptReq ::=` -/
def KeyPkgReceiptReq : Ty :=
  SEQUENCE [
    default "encryptReceipt" BOOLEAN (.int 0),
    optional "receiptsFrom" (implicit .context 0 SIREntityNames),
    mandatory "receiptsTo" SIREntityNames]

/-- `KeyPkgIdentifierAndReceiptReq ::=` -/
def KeyPkgIdentifierAndReceiptReq : Ty :=
  SEQUENCE [
    mandatory "pkgID" KeyPkgID,
    optional "receiptReq" KeyPkgReceiptReq]

/-- `SIREntityNameValue ::=` -/
def SIREntityNameValue : Ty :=
  ANY

/-- `DistinguishedName ::=` -/
def DistinguishedName : Ty :=
  Std.Rfc5280.RDNSequence

/-- `KeyPkgVersion ::=` -/
def KeyPkgVersion : Ty :=
  constrained (RANGE 1 65535) (named [("v1", 1), ("v2", 2)] INTEGER)

/-- `SingleAttribute ::=` -/
def SingleAttribute : Ty :=
  SEQUENCE [
    mandatory "attrType" OBJECT_IDENTIFIER,
    mandatory "attrValues" (constrained (SIZE 1 1) (SET_OF Std.Rfc5280.AttributeValue))]

/-- `KeyPkgIdentifier ::=` -/
def KeyPkgIdentifier : Ty :=
  CHOICE [
    mandatory "pkgID" KeyPkgID,
    mandatory "attribute" SingleAttribute]

/-- `KeyPackageReceipt ::=` -/
def KeyPackageReceipt : Ty :=
  SEQUENCE [
    default "version" KeyPkgVersion (.int 2),
    mandatory "receiptOf" KeyPkgIdentifier,
    mandatory "receivedBy" SIREntityName]

/-- `EnumeratedErrorCode ::=` -/
def EnumeratedErrorCode : Ty :=
  named [("decodeFailure", 1), ("badContentInfo", 2), ("badSignedData", 3), ("badEncapContent", 4), ("badCertificate", 5), ("badSignerInfo", 6), ("badSignedAttrs", 7), ("badUnsignedAttrs", 8), ("missingContent", 9), ("noTrustAnchor", 10), ("notAuthorized", 11), ("badDigestAlgorithm", 12), ("badSignatureAlgorithm", 13), ("unsupportedKeySize", 14), ("unsupportedParameters", 15), ("signatureFailure", 16), ("insufficientMemory", 17), ("incorrectTarget", 23), ("missingSignature", 29), ("resourcesBusy", 30), ("versionNumberMismatch", 31), ("revokedCertificate", 33), ("ambiguousDecrypt", 60), ("noDecryptKey", 61), ("badEncryptedData", 62), ("badEnvelopedData", 63), ("badAuthenticatedData", 64), ("badAuthEnvelopedData", 65), ("badKeyAgreeRecipientInfo", 66), ("badKEKRecipientInfo", 67), ("badEncryptContent", 68), ("badEncryptAlgorithm", 69), ("missingCiphertext", 70), ("decryptFailure", 71), ("badMACAlgorithm", 72), ("badAuthAttrs", 73), ("badUnauthAttrs", 74), ("invalidMAC", 75), ("mismatchedDigestAlg", 76), ("missingCertificate", 77), ("tooManySigners", 78), ("missingSignedAttributes", 79), ("derEncodingNotUsed", 80), ("missingContentHints", 81), ("invalidAttributeLocation", 82), ("badMessageDigest", 83), ("badKeyPackage", 84), ("badAttributes", 85), ("attributeComparisonFailure", 86), ("unsupportedSymmetricKeyPackage", 87), ("unsupportedAsymmetricKeyPackage", 88), ("constraintViolation", 89), ("ambiguousDefaultValue", 90), ("noMatchingRecipientInfo", 91), ("unsupportedKeyWrapAlgorithm", 92), ("badKeyTransRecipientInfo", 93), ("other", 127)] ENUMERATED

/-- `ErrorCodeChoice ::=` -/
def ErrorCodeChoice : Ty :=
  CHOICE [
    mandatory "enum" EnumeratedErrorCode,
    mandatory "oid" OBJECT_IDENTIFIER]

/-- `KeyPackageError ::=` -/
def KeyPackageError : Ty :=
  SEQUENCE [
    default "version" KeyPkgVersion (.int 2),
    optional "errorOf" (implicit .context 0 KeyPkgIdentifier),
    mandatory "errorBy" SIREntityName,
    mandatory "errorCode" ErrorCodeChoice]

/-- Classes of rfc7191.py and the types of the standard they implement. -/
def entries : List Entry :=
  [⟨"rfc7191.DistinguishedName", Verif.Rfc7191.DistinguishedName, DistinguishedName, .same, false⟩,
   ⟨"rfc7191.AttributeValue", Verif.Rfc7191.AttributeValue, Std.Rfc5280.AttributeValue, .same, false⟩,
   ⟨"rfc7191.SingleAttribute", Verif.Rfc7191.SingleAttribute, SingleAttribute, .same, false⟩,
   ⟨"rfc7191.SIREntityNameType", Verif.Rfc7191.SIREntityNameType, SIREntityNameType, .same, false⟩,
   ⟨"rfc7191.SIREntityNameValue", Verif.Rfc7191.SIREntityNameValue, SIREntityNameValue, .same, false⟩,
   ⟨"rfc7191.SIREntityName", Verif.Rfc7191.SIREntityName, SIREntityName, .same, false⟩,
   ⟨"rfc7191.SIREntityNames", Verif.Rfc7191.SIREntityNames, SIREntityNames, .same, false⟩,
   ⟨"rfc7191.EnumeratedErrorCode", Verif.Rfc7191.EnumeratedErrorCode, EnumeratedErrorCode, .same, false⟩,
   ⟨"rfc7191.ErrorCodeChoice", Verif.Rfc7191.ErrorCodeChoice, ErrorCodeChoice, .same, false⟩,
   ⟨"rfc7191.KeyPkgID", Verif.Rfc7191.KeyPkgID, KeyPkgID, .same, false⟩,
   ⟨"rfc7191.KeyPkgIdentifier", Verif.Rfc7191.KeyPkgIdentifier, KeyPkgIdentifier, .same, false⟩,
   ⟨"rfc7191.KeyPkgVersion", Verif.Rfc7191.KeyPkgVersion, KeyPkgVersion, .same, false⟩,
   ⟨"rfc7191.KeyPackageError", Verif.Rfc7191.KeyPackageError, KeyPackageError, .same, false⟩,
   ⟨"rfc7191.KeyPackageReceipt", Verif.Rfc7191.KeyPackageReceipt, KeyPackageReceipt, .same, false⟩,
   ⟨"rfc7191.KeyPkgReceiptReq", Verif.Rfc7191.KeyPkgReceiptReq, KeyPkgReceiptReq, .same, false⟩,
   ⟨"rfc7191.KeyPkgIdentifierAndReceiptReq", Verif.Rfc7191.KeyPkgIdentifierAndReceiptReq, KeyPkgIdentifierAndReceiptReq, .same, false⟩]

/-- Classes of rfc7191.py the transcription of the standard has no type for. -/
def beyond : List String :=
  ["rfc7191.AttributeValues",
   "rfc7191.siren_dn"]

/-- Constants of rfc7191.py and the values the standard gives them. -/
def constants : List Constant :=
  [⟨"rfc7191.id_dn", Verif.Rfc7191.id_dn, OBJECT_IDENTIFIER, .oid [2, 16, 840, 1, 101, 2, 1, 16, 0], true⟩,
   ⟨"rfc7191.id_ct_KP_keyPackageError", Verif.Rfc7191.id_ct_KP_keyPackageError, OBJECT_IDENTIFIER, .oid [2, 16, 840, 1, 101, 2, 1, 2, 78, 6], true⟩,
   ⟨"rfc7191.id_ct_KP_keyPackageReceipt", Verif.Rfc7191.id_ct_KP_keyPackageReceipt, OBJECT_IDENTIFIER, .oid [2, 16, 840, 1, 101, 2, 1, 2, 78, 3], true⟩,
   ⟨"rfc7191.id_aa_KP_keyPkgIdAndReceiptReq", Verif.Rfc7191.id_aa_KP_keyPkgIdAndReceiptReq, OBJECT_IDENTIFIER, .oid [2, 16, 840, 1, 101, 2, 1, 5, 65], true⟩]

/-- Constants of rfc7191.py the transcription of the standard has no value for. -/
def others : List String :=
  []

def standard : Standard := ⟨Verif.Rfc7191.asModule, entries, beyond, constants, others⟩

end Rfc7191
end Std
end Verif
