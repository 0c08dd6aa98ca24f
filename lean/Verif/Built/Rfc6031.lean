import Verif.Spec.Built
import Verif.Std.Rfc6031
import Verif.Built.Rfc5280
import Verif.Std.Rfc5280
import Verif.Std.Rfc6019

/-! What rfc6031.py implements, where that is not the standard (generated by tools/builtgen.py). -/

namespace Verif
namespace Built
namespace Rfc6031

open Asn1 Verif.Std Spec.X680 Spec.Built

/-- `SKeyAttribute ::=`, changed or supplied -/
def SKeyAttribute : Ty :=
  SEQUENCE [
    mandatory "attrType" Std.Rfc5280.AttributeType,
    mandatory "attrValues" (SET_OF Std.Rfc5280.AttributeValue)]

/-- `SKeyPkgAttribute ::=`, changed or supplied -/
def SKeyPkgAttribute : Ty :=
  SEQUENCE [
    mandatory "attrType" Std.Rfc5280.AttributeType,
    mandatory "attrValues" (SET_OF Std.Rfc5280.AttributeValue)]

/-- `OneSymmetricKey ::=` -/
def OneSymmetricKey : Ty :=
  constrained (SIZE 1 2) (SEQUENCE [
    optional "sKeyAttrs" (constrained (SIZE_MAX 1) (SEQUENCE_OF Built.Rfc6031.SKeyAttribute)),
    optional "sKey" OCTET_STRING])

/-- `SymmetricKeys ::=` -/
def SymmetricKeys : Ty :=
  constrained (SIZE_MAX 1) (SEQUENCE_OF Built.Rfc6031.OneSymmetricKey)

/-- `SymmetricKeyPackage ::=` -/
def SymmetricKeyPackage : Ty :=
  SEQUENCE [
    default "version" Std.Rfc6031.KeyPkgVersion (.int 1),
    optional "sKeyPkgAttrs" (implicit .context 0 (constrained (SIZE_MAX 1) (SEQUENCE_OF Built.Rfc6031.SKeyPkgAttribute))),
    mandatory "sKeys" Built.Rfc6031.SymmetricKeys]

/-- `Encoding ::=`, changed or supplied -/
def Encoding : Ty :=
  constrained (VALUES [.str "DECIMAL".toList, .str "HEXADECIMAL".toList, .str "ALPHANUMERIC".toList, .str "BASE64".toList, .str "BINARY".toList]) UTF8String

/-- `ChallengeFormat ::=` -/
def ChallengeFormat : Ty :=
  SEQUENCE [
    mandatory "encoding" Built.Rfc6031.Encoding,
    default "checkDigit" BOOLEAN (.int 0),
    mandatory "min" (constrained (RANGE_MAX 0) INTEGER),
    mandatory "max" (constrained (RANGE_MAX 0) INTEGER)]

/-- `ResponseFormat ::=` -/
def ResponseFormat : Ty :=
  SEQUENCE [
    mandatory "encoding" Built.Rfc6031.Encoding,
    mandatory "length" (constrained (RANGE_MAX 0) INTEGER),
    default "checkDigit" BOOLEAN (.int 0)]

/-- `PSKCAlgorithmParameters ::=` -/
def PSKCAlgorithmParameters : Ty :=
  CHOICE [
    mandatory "suite" UTF8String,
    mandatory "challengeFormat" (implicit .context 0 Built.Rfc6031.ChallengeFormat),
    mandatory "responseFormat" (implicit .context 1 Built.Rfc6031.ResponseFormat)]

/-- `PINPolicy ::=` -/
def PINPolicy : Ty :=
  SEQUENCE [
    optional "pinKeyId" (implicit .context 0 UTF8String),
    mandatory "pinUsageMode" (implicit .context 1 Std.Rfc6031.PINUsageMode),
    optional "maxFailedAttempts" (implicit .context 2 (constrained (RANGE_MAX 0) INTEGER)),
    optional "minLength" (implicit .context 3 (constrained (RANGE_MAX 0) INTEGER)),
    optional "maxLength" (implicit .context 4 (constrained (RANGE_MAX 0) INTEGER)),
    optional "pinEncoding" (implicit .context 5 Built.Rfc6031.Encoding)]

/-- `At-pskc-manufacturer ::=`, changed or supplied -/
def At_pskc_manufacturer : Ty :=
  UTF8String

/-- `At-pskc-serialNo ::=`, changed or supplied -/
def At_pskc_serialNo : Ty :=
  UTF8String

/-- `At-pskc-model ::=`, changed or supplied -/
def At_pskc_model : Ty :=
  UTF8String

/-- `At-pskc-issueNo ::=`, changed or supplied -/
def At_pskc_issueNo : Ty :=
  UTF8String

/-- `At-pskc-deviceBinding ::=`, changed or supplied -/
def At_pskc_deviceBinding : Ty :=
  UTF8String

/-- `At-pskc-deviceStartDate ::=`, changed or supplied -/
def At_pskc_deviceStartDate : Ty :=
  GeneralizedTime

/-- `At-pskc-deviceExpiryDate ::=`, changed or supplied -/
def At_pskc_deviceExpiryDate : Ty :=
  GeneralizedTime

/-- `At-pskc-moduleId ::=`, changed or supplied -/
def At_pskc_moduleId : Ty :=
  UTF8String

/-- `At-pskc-deviceUserId ::=`, changed or supplied -/
def At_pskc_deviceUserId : Ty :=
  UTF8String

/-- `At-pskc-keyUserId ::=`, changed or supplied -/
def At_pskc_keyUserId : Ty :=
  UTF8String

/-- `At-pskc-algorithm ::=`, changed or supplied -/
def At_pskc_algorithm : Ty :=
  UTF8String

/-- `At-pskc-issuer ::=`, changed or supplied -/
def At_pskc_issuer : Ty :=
  UTF8String

/-- `At-pskc-keyProfileId ::=`, changed or supplied -/
def At_pskc_keyProfileId : Ty :=
  UTF8String

/-- `At-pskc-keyReference ::=`, changed or supplied -/
def At_pskc_keyReference : Ty :=
  UTF8String

/-- `At-pskc-friendlyName ::=`, changed or supplied -/
def At_pskc_friendlyName : Ty :=
  Std.Rfc6031.FriendlyName

/-- `At-pskc-algorithmParameters ::=`, changed or supplied -/
def At_pskc_algorithmParameters : Ty :=
  Built.Rfc6031.PSKCAlgorithmParameters

/-- `At-pskc-counter ::=`, changed or supplied -/
def At_pskc_counter : Ty :=
  constrained (RANGE_MAX 0) INTEGER

/-- `At-pskc-time ::=`, changed or supplied -/
def At_pskc_time : Ty :=
  Std.Rfc6019.BinaryTime

/-- `At-pskc-timeInterval ::=`, changed or supplied -/
def At_pskc_timeInterval : Ty :=
  constrained (RANGE_MAX 0) INTEGER

/-- `At-pskc-timeDrift ::=`, changed or supplied -/
def At_pskc_timeDrift : Ty :=
  constrained (RANGE_MAX 0) INTEGER

/-- `At-pskc-valueMAC ::=`, changed or supplied -/
def At_pskc_valueMAC : Ty :=
  Std.Rfc6031.ValueMac

/-- `At-pskc-keyId ::=`, changed or supplied -/
def At_pskc_keyId : Ty :=
  UTF8String

/-- `At-pskc-keyStartDate ::=`, changed or supplied -/
def At_pskc_keyStartDate : Ty :=
  GeneralizedTime

/-- `At-pskc-keyExpiryDate ::=`, changed or supplied -/
def At_pskc_keyExpiryDate : Ty :=
  GeneralizedTime

/-- `At-pskc-numberOfTransactions ::=`, changed or supplied -/
def At_pskc_numberOfTransactions : Ty :=
  constrained (RANGE_MAX 0) INTEGER

/-- `At-pskc-keyUsage ::=`, changed or supplied -/
def At_pskc_keyUsage : Ty :=
  Std.Rfc6031.PSKCKeyUsages

/-- `At-pskc-pinPolicy ::=`, changed or supplied -/
def At_pskc_pinPolicy : Ty :=
  Built.Rfc6031.PINPolicy

def description : Description :=
  ⟨Verif.Rfc6031.asModule,
   [⟨"rfc6031.at_pskc_manufacturer", Verif.Rfc6031.at_pskc_manufacturer, Built.Rfc6031.At_pskc_manufacturer⟩,
    ⟨"rfc6031.at_pskc_serialNo", Verif.Rfc6031.at_pskc_serialNo, Built.Rfc6031.At_pskc_serialNo⟩,
    ⟨"rfc6031.at_pskc_model", Verif.Rfc6031.at_pskc_model, Built.Rfc6031.At_pskc_model⟩,
    ⟨"rfc6031.at_pskc_issueNo", Verif.Rfc6031.at_pskc_issueNo, Built.Rfc6031.At_pskc_issueNo⟩,
    ⟨"rfc6031.at_pskc_deviceBinding", Verif.Rfc6031.at_pskc_deviceBinding, Built.Rfc6031.At_pskc_deviceBinding⟩,
    ⟨"rfc6031.at_pskc_deviceStartDate", Verif.Rfc6031.at_pskc_deviceStartDate, Built.Rfc6031.At_pskc_deviceStartDate⟩,
    ⟨"rfc6031.at_pskc_deviceExpiryDate", Verif.Rfc6031.at_pskc_deviceExpiryDate, Built.Rfc6031.At_pskc_deviceExpiryDate⟩,
    ⟨"rfc6031.at_pskc_moduleId", Verif.Rfc6031.at_pskc_moduleId, Built.Rfc6031.At_pskc_moduleId⟩,
    ⟨"rfc6031.at_pskc_deviceUserId", Verif.Rfc6031.at_pskc_deviceUserId, Built.Rfc6031.At_pskc_deviceUserId⟩,
    ⟨"rfc6031.at_pskc_keyUserId", Verif.Rfc6031.at_pskc_keyUserId, Built.Rfc6031.At_pskc_keyUserId⟩,
    ⟨"rfc6031.at_pskc_algorithm", Verif.Rfc6031.at_pskc_algorithm, Built.Rfc6031.At_pskc_algorithm⟩,
    ⟨"rfc6031.at_pskc_issuer", Verif.Rfc6031.at_pskc_issuer, Built.Rfc6031.At_pskc_issuer⟩,
    ⟨"rfc6031.at_pskc_keyProfileId", Verif.Rfc6031.at_pskc_keyProfileId, Built.Rfc6031.At_pskc_keyProfileId⟩,
    ⟨"rfc6031.at_pskc_keyReference", Verif.Rfc6031.at_pskc_keyReference, Built.Rfc6031.At_pskc_keyReference⟩,
    ⟨"rfc6031.FriendlyName", Verif.Rfc6031.FriendlyName, Std.Rfc6031.FriendlyName⟩,
    ⟨"rfc6031.at_pskc_friendlyName", Verif.Rfc6031.at_pskc_friendlyName, Built.Rfc6031.At_pskc_friendlyName⟩,
    ⟨"rfc6031.Encoding", Verif.Rfc6031.Encoding, Built.Rfc6031.Encoding⟩,
    ⟨"rfc6031.ChallengeFormat", Verif.Rfc6031.ChallengeFormat, Built.Rfc6031.ChallengeFormat⟩,
    ⟨"rfc6031.ResponseFormat", Verif.Rfc6031.ResponseFormat, Built.Rfc6031.ResponseFormat⟩,
    ⟨"rfc6031.PSKCAlgorithmParameters", Verif.Rfc6031.PSKCAlgorithmParameters, Built.Rfc6031.PSKCAlgorithmParameters⟩,
    ⟨"rfc6031.at_pskc_algorithmParameters", Verif.Rfc6031.at_pskc_algorithmParameters, Built.Rfc6031.At_pskc_algorithmParameters⟩,
    ⟨"rfc6031.at_pskc_counter", Verif.Rfc6031.at_pskc_counter, Built.Rfc6031.At_pskc_counter⟩,
    ⟨"rfc6031.at_pskc_time", Verif.Rfc6031.at_pskc_time, Built.Rfc6031.At_pskc_time⟩,
    ⟨"rfc6031.at_pskc_timeInterval", Verif.Rfc6031.at_pskc_timeInterval, Built.Rfc6031.At_pskc_timeInterval⟩,
    ⟨"rfc6031.at_pskc_timeDrift", Verif.Rfc6031.at_pskc_timeDrift, Built.Rfc6031.At_pskc_timeDrift⟩,
    ⟨"rfc6031.ValueMac", Verif.Rfc6031.ValueMac, Std.Rfc6031.ValueMac⟩,
    ⟨"rfc6031.at_pskc_valueMAC", Verif.Rfc6031.at_pskc_valueMAC, Built.Rfc6031.At_pskc_valueMAC⟩,
    ⟨"rfc6031.at_pskc_keyId", Verif.Rfc6031.at_pskc_keyId, Built.Rfc6031.At_pskc_keyId⟩,
    ⟨"rfc6031.at_pskc_keyStartDate", Verif.Rfc6031.at_pskc_keyStartDate, Built.Rfc6031.At_pskc_keyStartDate⟩,
    ⟨"rfc6031.at_pskc_keyExpiryDate", Verif.Rfc6031.at_pskc_keyExpiryDate, Built.Rfc6031.At_pskc_keyExpiryDate⟩,
    ⟨"rfc6031.at_pskc_numberOfTransactions", Verif.Rfc6031.at_pskc_numberOfTransactions, Built.Rfc6031.At_pskc_numberOfTransactions⟩,
    ⟨"rfc6031.PSKCKeyUsage", Verif.Rfc6031.PSKCKeyUsage, Std.Rfc6031.PSKCKeyUsage⟩,
    ⟨"rfc6031.PSKCKeyUsages", Verif.Rfc6031.PSKCKeyUsages, Std.Rfc6031.PSKCKeyUsages⟩,
    ⟨"rfc6031.at_pskc_keyUsage", Verif.Rfc6031.at_pskc_keyUsage, Built.Rfc6031.At_pskc_keyUsage⟩,
    ⟨"rfc6031.PINUsageMode", Verif.Rfc6031.PINUsageMode, Std.Rfc6031.PINUsageMode⟩,
    ⟨"rfc6031.PINPolicy", Verif.Rfc6031.PINPolicy, Built.Rfc6031.PINPolicy⟩,
    ⟨"rfc6031.at_pskc_pinPolicy", Verif.Rfc6031.at_pskc_pinPolicy, Built.Rfc6031.At_pskc_pinPolicy⟩,
    ⟨"rfc6031.AttributeType", Verif.Rfc6031.AttributeType, Std.Rfc5280.AttributeType⟩,
    ⟨"rfc6031.AttributeValue", Verif.Rfc6031.AttributeValue, Std.Rfc5280.AttributeValue⟩,
    ⟨"rfc6031.SKeyAttribute", Verif.Rfc6031.SKeyAttribute, Built.Rfc6031.SKeyAttribute⟩,
    ⟨"rfc6031.SKeyPkgAttribute", Verif.Rfc6031.SKeyPkgAttribute, Built.Rfc6031.SKeyPkgAttribute⟩,
    ⟨"rfc6031.KeyPkgVersion", Verif.Rfc6031.KeyPkgVersion, Std.Rfc6031.KeyPkgVersion⟩,
    ⟨"rfc6031.OneSymmetricKey", Verif.Rfc6031.OneSymmetricKey, Built.Rfc6031.OneSymmetricKey⟩,
    ⟨"rfc6031.SymmetricKeys", Verif.Rfc6031.SymmetricKeys, Built.Rfc6031.SymmetricKeys⟩,
    ⟨"rfc6031.SymmetricKeyPackage", Verif.Rfc6031.SymmetricKeyPackage, Built.Rfc6031.SymmetricKeyPackage⟩]⟩

end Rfc6031
end Built
end Verif
