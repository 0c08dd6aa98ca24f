import Verif.Spec.Grade
import Verif.Gen.Rfc6031
import Verif.Std.Rfc5280

/-! The ASN.1 of tools/std/rfc6031.asn1 (generated by tools/stdgen.py). -/

namespace Verif
namespace Std
namespace Rfc6031

open Asn1 Spec.X680

/-- `SKeyAttribute ::=` -/
def SKeyAttribute : Ty :=
  SEQUENCE [
    mandatory "attrType" Std.Rfc5280.AttributeType,
    mandatory "attrValues" (constrained (SIZE_MAX 1) (SET_OF Std.Rfc5280.AttributeValue))]

/-- `SKeyPkgAttribute ::=` -/
def SKeyPkgAttribute : Ty :=
  SEQUENCE [
    mandatory "attrType" Std.Rfc5280.AttributeType,
    mandatory "attrValues" (constrained (SIZE_MAX 1) (SET_OF Std.Rfc5280.AttributeValue))]

/-- `KeyPkgVersion ::=` -/
def KeyPkgVersion : Ty :=
  named [("v1", 1)] INTEGER

/-- `OneSymmetricKey ::=` -/
def OneSymmetricKey : Ty :=
  constrained (SIZE 1 2) (SEQUENCE [
    optional "sKeyAttrs" (constrained (SIZE_MAX 1) (SEQUENCE_OF SKeyAttribute)),
    optional "sKey" OCTET_STRING])

/-- `SymmetricKeys ::=` -/
def SymmetricKeys : Ty :=
  constrained (SIZE_MAX 1) (SEQUENCE_OF OneSymmetricKey)

/-- `SymmetricKeyPackage ::=` -/
def SymmetricKeyPackage : Ty :=
  SEQUENCE [
    default "version" KeyPkgVersion (.int 1),
    optional "sKeyPkgAttrs" (implicit .context 0 (constrained (SIZE_MAX 1) (SEQUENCE_OF SKeyPkgAttribute))),
    mandatory "sKeys" SymmetricKeys]

/-- `FriendlyName ::=` -/
def FriendlyName : Ty :=
  SEQUENCE [
    mandatory "friendlyName" UTF8String,
    optional "friendlyNameLangTag" UTF8String]

/-- `Encoding ::=` -/
def Encoding : Ty :=
  constrained (VALUES [.str "DECIMAL".toList, .str "HEXADECIMAL".toList, .str "ALPHANUMERIC".toList, .str "BASE64".toList]) UTF8String

/-- `ChallengeFormat ::=` -/
def ChallengeFormat : Ty :=
  SEQUENCE [
    mandatory "encoding" Encoding,
    default "checkDigit" BOOLEAN (.int 0),
    mandatory "min" (constrained (RANGE_MAX 0) INTEGER),
    mandatory "max" (constrained (RANGE_MAX 0) INTEGER)]

/-- `ResponseFormat ::=` -/
def ResponseFormat : Ty :=
  SEQUENCE [
    mandatory "encoding" Encoding,
    mandatory "length" (constrained (RANGE_MAX 0) INTEGER),
    default "checkDigit" BOOLEAN (.int 0)]

/-- `PSKCAlgorithmParameters ::=` -/
def PSKCAlgorithmParameters : Ty :=
  CHOICE [
    mandatory "suite" UTF8String,
    mandatory "challengeFormat" (implicit .context 0 ChallengeFormat),
    mandatory "responseFormat" (implicit .context 1 ResponseFormat)]

/-- `ValueMac ::=` -/
def ValueMac : Ty :=
  SEQUENCE [
    mandatory "macAlgorithm" UTF8String,
    mandatory "mac" UTF8String]

/-- `PSKCKeyUsage ::=` -/
def PSKCKeyUsage : Ty :=
  constrained (VALUES [.str "OTP".toList, .str "CR".toList, .str "Encrypt".toList, .str "Integrity".toList, .str "Verify".toList, .str "Unlock".toList, .str "Decrypt".toList, .str "KeyWrap".toList, .str "Unwrap".toList, .str "Derive".toList, .str "Generate".toList]) UTF8String

/-- `PSKCKeyUsages ::=` -/
def PSKCKeyUsages : Ty :=
  SEQUENCE_OF PSKCKeyUsage

/-- `PINUsageMode ::=` -/
def PINUsageMode : Ty :=
  constrained (VALUES [.str "Local".toList, .str "Prepend".toList, .str "Append".toList, .str "Algorithmic".toList]) UTF8String

/-- `PINPolicy ::=` -/
def PINPolicy : Ty :=
  SEQUENCE [
    optional "pinKeyId" (implicit .context 0 UTF8String),
    mandatory "pinUsageMode" (implicit .context 1 PINUsageMode),
    optional "maxFailedAttempts" (implicit .context 2 (constrained (RANGE_MAX 0) INTEGER)),
    optional "minLength" (implicit .context 3 (constrained (RANGE_MAX 0) INTEGER)),
    optional "maxLength" (implicit .context 4 (constrained (RANGE_MAX 0) INTEGER)),
    optional "pinEncoding" (implicit .context 5 Encoding)]

/-- Classes of rfc6031.py and the types of the standard they implement. -/
def entries : List Entry :=
  [⟨"rfc6031.FriendlyName", Verif.Rfc6031.FriendlyName, FriendlyName, .same, false⟩,
   ⟨"rfc6031.Encoding", Verif.Rfc6031.Encoding, Encoding, .relaxed, false⟩,
   ⟨"rfc6031.ChallengeFormat", Verif.Rfc6031.ChallengeFormat, ChallengeFormat, .relaxed, false⟩,
   ⟨"rfc6031.ResponseFormat", Verif.Rfc6031.ResponseFormat, ResponseFormat, .relaxed, false⟩,
   ⟨"rfc6031.PSKCAlgorithmParameters", Verif.Rfc6031.PSKCAlgorithmParameters, PSKCAlgorithmParameters, .relaxed, false⟩,
   ⟨"rfc6031.ValueMac", Verif.Rfc6031.ValueMac, ValueMac, .same, false⟩,
   ⟨"rfc6031.PSKCKeyUsage", Verif.Rfc6031.PSKCKeyUsage, PSKCKeyUsage, .same, false⟩,
   ⟨"rfc6031.PSKCKeyUsages", Verif.Rfc6031.PSKCKeyUsages, PSKCKeyUsages, .same, false⟩,
   ⟨"rfc6031.PINUsageMode", Verif.Rfc6031.PINUsageMode, PINUsageMode, .same, false⟩,
   ⟨"rfc6031.PINPolicy", Verif.Rfc6031.PINPolicy, PINPolicy, .relaxed, false⟩,
   ⟨"rfc6031.AttributeType", Verif.Rfc6031.AttributeType, Std.Rfc5280.AttributeType, .same, false⟩,
   ⟨"rfc6031.AttributeValue", Verif.Rfc6031.AttributeValue, Std.Rfc5280.AttributeValue, .same, false⟩,
   ⟨"rfc6031.SKeyAttribute", Verif.Rfc6031.SKeyAttribute, SKeyAttribute, .relaxed, false⟩,
   ⟨"rfc6031.SKeyPkgAttribute", Verif.Rfc6031.SKeyPkgAttribute, SKeyPkgAttribute, .relaxed, false⟩,
   ⟨"rfc6031.KeyPkgVersion", Verif.Rfc6031.KeyPkgVersion, KeyPkgVersion, .same, false⟩,
   ⟨"rfc6031.OneSymmetricKey", Verif.Rfc6031.OneSymmetricKey, OneSymmetricKey, .relaxed, false⟩,
   ⟨"rfc6031.SymmetricKeys", Verif.Rfc6031.SymmetricKeys, SymmetricKeys, .relaxed, false⟩,
   ⟨"rfc6031.SymmetricKeyPackage", Verif.Rfc6031.SymmetricKeyPackage, SymmetricKeyPackage, .relaxed, false⟩]

/-- Classes of rfc6031.py the transcription of the standard has no type for. -/
def beyond : List String :=
  ["rfc6031.at_pskc_manufacturer",
   "rfc6031.at_pskc_serialNo",
   "rfc6031.at_pskc_model",
   "rfc6031.at_pskc_issueNo",
   "rfc6031.at_pskc_deviceBinding",
   "rfc6031.at_pskc_deviceStartDate",
   "rfc6031.at_pskc_deviceExpiryDate",
   "rfc6031.at_pskc_moduleId",
   "rfc6031.at_pskc_deviceUserId",
   "rfc6031.at_pskc_keyUserId",
   "rfc6031.at_pskc_algorithm",
   "rfc6031.at_pskc_issuer",
   "rfc6031.at_pskc_keyProfileId",
   "rfc6031.at_pskc_keyReference",
   "rfc6031.at_pskc_friendlyName",
   "rfc6031.at_pskc_algorithmParameters",
   "rfc6031.at_pskc_counter",
   "rfc6031.at_pskc_time",
   "rfc6031.at_pskc_timeInterval",
   "rfc6031.at_pskc_timeDrift",
   "rfc6031.at_pskc_valueMAC",
   "rfc6031.at_pskc_keyId",
   "rfc6031.at_pskc_keyStartDate",
   "rfc6031.at_pskc_keyExpiryDate",
   "rfc6031.at_pskc_numberOfTransactions",
   "rfc6031.at_pskc_keyUsage",
   "rfc6031.at_pskc_pinPolicy"]

/-- Constants of rfc6031.py and the values the standard gives them. -/
def constants : List Constant :=
  [⟨"rfc6031.id_pskc", Verif.Rfc6031.id_pskc, OBJECT_IDENTIFIER, .oid [1, 2, 840, 113549, 1, 9, 16, 12], true⟩,
   ⟨"rfc6031.id_pskc_manufacturer", Verif.Rfc6031.id_pskc_manufacturer, OBJECT_IDENTIFIER, .oid [1, 2, 840, 113549, 1, 9, 16, 12, 1], true⟩,
   ⟨"rfc6031.id_pskc_serialNo", Verif.Rfc6031.id_pskc_serialNo, OBJECT_IDENTIFIER, .oid [1, 2, 840, 113549, 1, 9, 16, 12, 2], true⟩,
   ⟨"rfc6031.id_pskc_model", Verif.Rfc6031.id_pskc_model, OBJECT_IDENTIFIER, .oid [1, 2, 840, 113549, 1, 9, 16, 12, 3], true⟩,
   ⟨"rfc6031.id_pskc_issueNo", Verif.Rfc6031.id_pskc_issueNo, OBJECT_IDENTIFIER, .oid [1, 2, 840, 113549, 1, 9, 16, 12, 4], true⟩,
   ⟨"rfc6031.id_pskc_deviceBinding", Verif.Rfc6031.id_pskc_deviceBinding, OBJECT_IDENTIFIER, .oid [1, 2, 840, 113549, 1, 9, 16, 12, 5], true⟩,
   ⟨"rfc6031.id_pskc_deviceStartDate", Verif.Rfc6031.id_pskc_deviceStartDate, OBJECT_IDENTIFIER, .oid [1, 2, 840, 113549, 1, 9, 16, 12, 6], true⟩,
   ⟨"rfc6031.id_pskc_deviceExpiryDate", Verif.Rfc6031.id_pskc_deviceExpiryDate, OBJECT_IDENTIFIER, .oid [1, 2, 840, 113549, 1, 9, 16, 12, 7], true⟩,
   ⟨"rfc6031.id_pskc_moduleId", Verif.Rfc6031.id_pskc_moduleId, OBJECT_IDENTIFIER, .oid [1, 2, 840, 113549, 1, 9, 16, 12, 8], true⟩,
   ⟨"rfc6031.id_pskc_deviceUserId", Verif.Rfc6031.id_pskc_deviceUserId, OBJECT_IDENTIFIER, .oid [1, 2, 840, 113549, 1, 9, 16, 12, 26], true⟩,
   ⟨"rfc6031.id_pskc_keyId", Verif.Rfc6031.id_pskc_keyId, OBJECT_IDENTIFIER, .oid [1, 2, 840, 113549, 1, 9, 16, 12, 9], true⟩,
   ⟨"rfc6031.id_pskc_algorithm", Verif.Rfc6031.id_pskc_algorithm, OBJECT_IDENTIFIER, .oid [1, 2, 840, 113549, 1, 9, 16, 12, 10], true⟩,
   ⟨"rfc6031.id_pskc_issuer", Verif.Rfc6031.id_pskc_issuer, OBJECT_IDENTIFIER, .oid [1, 2, 840, 113549, 1, 9, 16, 12, 11], true⟩,
   ⟨"rfc6031.id_pskc_keyProfileId", Verif.Rfc6031.id_pskc_keyProfileId, OBJECT_IDENTIFIER, .oid [1, 2, 840, 113549, 1, 9, 16, 12, 12], true⟩,
   ⟨"rfc6031.id_pskc_keyReference", Verif.Rfc6031.id_pskc_keyReference, OBJECT_IDENTIFIER, .oid [1, 2, 840, 113549, 1, 9, 16, 12, 13], true⟩,
   ⟨"rfc6031.id_pskc_friendlyName", Verif.Rfc6031.id_pskc_friendlyName, OBJECT_IDENTIFIER, .oid [1, 2, 840, 113549, 1, 9, 16, 12, 14], true⟩,
   ⟨"rfc6031.id_pskc_algorithmParameters", Verif.Rfc6031.id_pskc_algorithmParameters, OBJECT_IDENTIFIER, .oid [1, 2, 840, 113549, 1, 9, 16, 12, 15], true⟩,
   ⟨"rfc6031.id_pskc_counter", Verif.Rfc6031.id_pskc_counter, OBJECT_IDENTIFIER, .oid [1, 2, 840, 113549, 1, 9, 16, 12, 16], true⟩,
   ⟨"rfc6031.id_pskc_time", Verif.Rfc6031.id_pskc_time, OBJECT_IDENTIFIER, .oid [1, 2, 840, 113549, 1, 9, 16, 12, 17], true⟩,
   ⟨"rfc6031.id_pskc_timeInterval", Verif.Rfc6031.id_pskc_timeInterval, OBJECT_IDENTIFIER, .oid [1, 2, 840, 113549, 1, 9, 16, 12, 18], true⟩,
   ⟨"rfc6031.id_pskc_timeDrift", Verif.Rfc6031.id_pskc_timeDrift, OBJECT_IDENTIFIER, .oid [1, 2, 840, 113549, 1, 9, 16, 12, 19], true⟩,
   ⟨"rfc6031.id_pskc_valueMAC", Verif.Rfc6031.id_pskc_valueMAC, OBJECT_IDENTIFIER, .oid [1, 2, 840, 113549, 1, 9, 16, 12, 20], true⟩,
   ⟨"rfc6031.id_pskc_keyUserId", Verif.Rfc6031.id_pskc_keyUserId, OBJECT_IDENTIFIER, .oid [1, 2, 840, 113549, 1, 9, 16, 12, 27], true⟩,
   ⟨"rfc6031.id_pskc_keyStartDate", Verif.Rfc6031.id_pskc_keyStartDate, OBJECT_IDENTIFIER, .oid [1, 2, 840, 113549, 1, 9, 16, 12, 21], true⟩,
   ⟨"rfc6031.id_pskc_keyExpiryDate", Verif.Rfc6031.id_pskc_keyExpiryDate, OBJECT_IDENTIFIER, .oid [1, 2, 840, 113549, 1, 9, 16, 12, 22], true⟩,
   ⟨"rfc6031.id_pskc_numberOfTransactions", Verif.Rfc6031.id_pskc_numberOfTransactions, OBJECT_IDENTIFIER, .oid [1, 2, 840, 113549, 1, 9, 16, 12, 23], true⟩,
   ⟨"rfc6031.id_pskc_keyUsages", Verif.Rfc6031.id_pskc_keyUsages, OBJECT_IDENTIFIER, .oid [1, 2, 840, 113549, 1, 9, 16, 12, 24], true⟩,
   ⟨"rfc6031.id_pskc_pinPolicy", Verif.Rfc6031.id_pskc_pinPolicy, OBJECT_IDENTIFIER, .oid [1, 2, 840, 113549, 1, 9, 16, 12, 25], true⟩,
   ⟨"rfc6031.id_ct_KP_sKeyPackage", Verif.Rfc6031.id_ct_KP_sKeyPackage, OBJECT_IDENTIFIER, .oid [1, 2, 840, 113549, 1, 9, 16, 1, 25], true⟩]

/-- Constants of rfc6031.py the transcription of the standard has no value for. -/
def others : List String :=
  []

def standard : Standard := ⟨Verif.Rfc6031.asModule, entries, beyond, constants, others⟩

end Rfc6031
end Std
end Verif
