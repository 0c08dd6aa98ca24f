import Verif.Spec.Built
import Verif.Std.Rfc2985
import Verif.Built.Rfc5280
import Verif.Built.Rfc5958
import Verif.Built.Rfc7292
import Verif.Std.Rfc5280
import Verif.Std.Rfc5652
import Verif.Std.Rfc5958
import Verif.Std.Rfc7292

/-! What rfc2985.py implements, where that is not the standard (generated by tools/builtgen.py). -/

namespace Verif
namespace Built
namespace Rfc2985

open Asn1 Verif.Std Spec.X680 Spec.Built

/-- `CMSAttribute ::=`, changed or supplied -/
def CMSAttribute : Ty :=
  Std.Rfc5652.Attribute

/-- `AttributeValues ::=`, changed or supplied -/
def AttributeValues : Ty :=
  SET_OF Std.Rfc5280.AttributeValue

/-- `SingleAttributeValues ::=`, changed or supplied -/
def SingleAttributeValues : Ty :=
  SET_OF Std.Rfc5280.AttributeValue

/-- `SingleAttribute ::=`, changed or supplied -/
def SingleAttribute : Ty :=
  SEQUENCE [
    mandatory "type" Std.Rfc5280.AttributeType,
    mandatory "values" (constrained (SIZE 1 1) (SET_OF Std.Rfc5280.AttributeValue))]

/-- `CMSSingleAttribute ::=`, changed or supplied -/
def CMSSingleAttribute : Ty :=
  SEQUENCE [
    mandatory "attrType" Std.Rfc5280.AttributeType,
    mandatory "attrValues" (constrained (SIZE 1 1) (SET_OF Std.Rfc5280.AttributeValue))]

/-- `DirectoryString ::=`, changed or supplied -/
def DirectoryString : Ty :=
  CHOICE [
    mandatory "teletexString" (constrained (SIZE 1 255) TeletexString),
    mandatory "printableString" (constrained (SIZE 1 255) PrintableString),
    mandatory "universalString" (constrained (SIZE 1 255) UniversalString),
    mandatory "utf8String" (constrained (SIZE 1 255) UTF8String),
    mandatory "bmpString" (constrained (SIZE 1 255) BMPString)]

/-- `PKCS9String ::=`, changed or supplied -/
def PKCS9String : Ty :=
  CHOICE [
    mandatory "ia5String" (constrained (SIZE 1 255) IA5String),
    mandatory "directoryString" Built.Rfc2985.DirectoryString]

/-- `GenderString ::=`, changed or supplied -/
def GenderString : Ty :=
  constrained (VALUES [.str "M".toList, .str "F".toList, .str "m".toList, .str "f".toList]) PrintableString

/-- `AttributeSet ::=`, changed or supplied -/
def AttributeSet : Ty :=
  SET_OF Std.Rfc5280.Attribute

/-- `FriendlyName ::=`, changed or supplied -/
def FriendlyName : Ty :=
  constrained (SIZE 1 255) BMPString

/-- `SMIMECapability ::=`, changed or supplied -/
def SMIMECapability : Ty :=
  Std.Rfc5280.AlgorithmIdentifier

/-- `SMIMECapabilities ::=`, changed or supplied -/
def SMIMECapabilities : Ty :=
  SEQUENCE_OF Built.Rfc2985.SMIMECapability

def description : Description :=
  ⟨Verif.Rfc2985.asModule,
   [⟨"rfc2985.AlgorithmIdentifier", Verif.Rfc2985.AlgorithmIdentifier, Std.Rfc5280.AlgorithmIdentifier⟩,
    ⟨"rfc2985.Attribute", Verif.Rfc2985.Attribute, Std.Rfc5280.Attribute⟩,
    ⟨"rfc2985.EmailAddress", Verif.Rfc2985.EmailAddress, Std.Rfc5280.EmailAddress⟩,
    ⟨"rfc2985.Extensions", Verif.Rfc2985.Extensions, Std.Rfc5280.Extensions⟩,
    ⟨"rfc2985.Time", Verif.Rfc2985.Time, Std.Rfc5280.Time⟩,
    ⟨"rfc2985.X520countryName", Verif.Rfc2985.X520countryName, Std.Rfc5280.X520countryName⟩,
    ⟨"rfc2985.X520SerialNumber", Verif.Rfc2985.X520SerialNumber, Std.Rfc5280.X520SerialNumber⟩,
    ⟨"rfc2985.ContentInfo", Verif.Rfc2985.ContentInfo, Std.Rfc5652.ContentInfo⟩,
    ⟨"rfc2985.ContentType", Verif.Rfc2985.ContentType, Std.Rfc5652.ContentType⟩,
    ⟨"rfc2985.Countersignature", Verif.Rfc2985.Countersignature, Std.Rfc5652.Countersignature⟩,
    ⟨"rfc2985.MessageDigest", Verif.Rfc2985.MessageDigest, Std.Rfc5652.MessageDigest⟩,
    ⟨"rfc2985.SignerInfo", Verif.Rfc2985.SignerInfo, Std.Rfc5652.SignerInfo⟩,
    ⟨"rfc2985.SigningTime", Verif.Rfc2985.SigningTime, Std.Rfc5652.SigningTime⟩,
    ⟨"rfc2985.EncryptedPrivateKeyInfo", Verif.Rfc2985.EncryptedPrivateKeyInfo, Std.Rfc5958.EncryptedPrivateKeyInfo⟩,
    ⟨"rfc2985.PFX", Verif.Rfc2985.PFX, Built.Rfc7292.PFX⟩,
    ⟨"rfc2985.AttributeType", Verif.Rfc2985.AttributeType, Std.Rfc5280.AttributeType⟩,
    ⟨"rfc2985.AttributeValue", Verif.Rfc2985.AttributeValue, Std.Rfc5280.AttributeValue⟩,
    ⟨"rfc2985.AttributeValues", Verif.Rfc2985.AttributeValues, Built.Rfc2985.AttributeValues⟩,
    ⟨"rfc2985.SingleAttributeValues", Verif.Rfc2985.SingleAttributeValues, Built.Rfc2985.SingleAttributeValues⟩,
    ⟨"rfc2985.SingleAttribute", Verif.Rfc2985.SingleAttribute, Built.Rfc2985.SingleAttribute⟩,
    ⟨"rfc2985.CMSAttribute", Verif.Rfc2985.CMSAttribute, Built.Rfc2985.CMSAttribute⟩,
    ⟨"rfc2985.CMSSingleAttribute", Verif.Rfc2985.CMSSingleAttribute, Built.Rfc2985.CMSSingleAttribute⟩,
    ⟨"rfc2985.DirectoryString", Verif.Rfc2985.DirectoryString, Built.Rfc2985.DirectoryString⟩,
    ⟨"rfc2985.PKCS9String", Verif.Rfc2985.PKCS9String, Built.Rfc2985.PKCS9String⟩,
    ⟨"rfc2985.GenderString", Verif.Rfc2985.GenderString, Built.Rfc2985.GenderString⟩,
    ⟨"rfc2985.RandomNonce", Verif.Rfc2985.RandomNonce, Std.Rfc2985.RandomNonce⟩,
    ⟨"rfc2985.SequenceNumber", Verif.Rfc2985.SequenceNumber, Std.Rfc2985.SequenceNumber⟩,
    ⟨"rfc2985.ExtensionRequest", Verif.Rfc2985.ExtensionRequest, Std.Rfc2985.ExtensionRequest⟩,
    ⟨"rfc2985.AttributeSet", Verif.Rfc2985.AttributeSet, Built.Rfc2985.AttributeSet⟩,
    ⟨"rfc2985.FriendlyName", Verif.Rfc2985.FriendlyName, Built.Rfc2985.FriendlyName⟩,
    ⟨"rfc2985.SMIMECapability", Verif.Rfc2985.SMIMECapability, Built.Rfc2985.SMIMECapability⟩,
    ⟨"rfc2985.SMIMECapabilities", Verif.Rfc2985.SMIMECapabilities, Built.Rfc2985.SMIMECapabilities⟩]⟩

end Rfc2985
end Built
end Verif
