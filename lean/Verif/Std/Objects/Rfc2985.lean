import Verif.Asn1.Objects
import Verif.Std.Rfc2985
import Verif.Std.Rfc5751

/-! The objects of rfc2985 (generated by tools/objgen.py from tools/std/objects.txt). -/

set_option maxRecDepth 100000

namespace Verif
namespace Std
namespace Rfc2985

open Asn1 Spec.X680

def objects : List Object :=
  [⟨.ATTRIBUTE, .oid [1, 2, 840, 113549, 1, 9, 25, 5], Std.Rfc5652.ContentInfo, (some .same)⟩,
   ⟨.ATTRIBUTE, .oid [2, 16, 840, 1, 113730, 3, 1, 216], Std.Rfc7292.PFX, (some (.refused [48, 8, 2, 1, 0, 48, 3, 6, 1, 43]))⟩,
   ⟨.ATTRIBUTE, .oid [1, 2, 840, 113549, 1, 9, 25, 2], Std.Rfc5958.EncryptedPrivateKeyInfo, (some .same)⟩,
   ⟨.ATTRIBUTE, .oid [1, 2, 840, 113549, 1, 9, 1], Std.Rfc5280.EmailAddress, (some .same)⟩,
   ⟨.ATTRIBUTE, .oid [1, 2, 840, 113549, 1, 9, 2], (CHOICE [
    mandatory "ia5String" (constrained (SIZE 1 255) IA5String),
    mandatory "directoryString" (CHOICE [
      mandatory "teletexString" (constrained (SIZE 1 255) TeletexString),
      mandatory "printableString" (constrained (SIZE 1 255) PrintableString),
      mandatory "universalString" (constrained (SIZE 1 255) UniversalString),
      mandatory "utf8String" (constrained (SIZE 1 255) UTF8String),
      mandatory "bmpString" (constrained (SIZE 1 255) BMPString)])]), (some .same)⟩,
   ⟨.ATTRIBUTE, .oid [1, 2, 840, 113549, 1, 9, 8], (CHOICE [
    mandatory "teletexString" (constrained (SIZE 1 255) TeletexString),
    mandatory "printableString" (constrained (SIZE 1 255) PrintableString),
    mandatory "universalString" (constrained (SIZE 1 255) UniversalString),
    mandatory "utf8String" (constrained (SIZE 1 255) UTF8String),
    mandatory "bmpString" (constrained (SIZE 1 255) BMPString)]), (some .same)⟩,
   ⟨.ATTRIBUTE, .oid [1, 3, 6, 1, 5, 5, 7, 9, 1], GeneralizedTime, (some .same)⟩,
   ⟨.ATTRIBUTE, .oid [1, 3, 6, 1, 5, 5, 7, 9, 2], (CHOICE [
    mandatory "teletexString" (constrained (SIZE 1 255) TeletexString),
    mandatory "printableString" (constrained (SIZE 1 255) PrintableString),
    mandatory "universalString" (constrained (SIZE 1 255) UniversalString),
    mandatory "utf8String" (constrained (SIZE 1 255) UTF8String),
    mandatory "bmpString" (constrained (SIZE 1 255) BMPString)]), (some .same)⟩,
   ⟨.ATTRIBUTE, .oid [1, 3, 6, 1, 5, 5, 7, 9, 3], (constrained (VALUES [.str "M".toList, .str "F".toList, .str "m".toList, .str "f".toList]) (constrained (SIZE 1 1) PrintableString)), (some .same)⟩,
   ⟨.ATTRIBUTE, .oid [1, 3, 6, 1, 5, 5, 7, 9, 4], Std.Rfc5280.X520countryName, (some .same)⟩,
   ⟨.ATTRIBUTE, .oid [1, 3, 6, 1, 5, 5, 7, 9, 5], Std.Rfc5280.X520countryName, (some .same)⟩,
   ⟨.ATTRIBUTE, .oid [2, 5, 4, 65], (CHOICE [
    mandatory "teletexString" (constrained (SIZE 1 255) TeletexString),
    mandatory "printableString" (constrained (SIZE 1 255) PrintableString),
    mandatory "universalString" (constrained (SIZE 1 255) UniversalString),
    mandatory "utf8String" (constrained (SIZE 1 255) UTF8String),
    mandatory "bmpString" (constrained (SIZE 1 255) BMPString)]), (some .same)⟩,
   ⟨.ATTRIBUTE, .oid [2, 5, 4, 5], Std.Rfc5280.X520SerialNumber, (some .same)⟩,
   ⟨.ATTRIBUTE, .oid [1, 2, 840, 113549, 1, 9, 7], (CHOICE [
    mandatory "teletexString" (constrained (SIZE 1 255) TeletexString),
    mandatory "printableString" (constrained (SIZE 1 255) PrintableString),
    mandatory "universalString" (constrained (SIZE 1 255) UniversalString),
    mandatory "utf8String" (constrained (SIZE 1 255) UTF8String),
    mandatory "bmpString" (constrained (SIZE 1 255) BMPString)]), (some .same)⟩,
   ⟨.ATTRIBUTE, .oid [1, 2, 840, 113549, 1, 9, 14], ExtensionRequest, (some .same)⟩,
   ⟨.ATTRIBUTE, .oid [1, 2, 840, 113549, 1, 9, 9], (SET_OF Std.Rfc5280.Attribute), (some .same)⟩,
   ⟨.CMS_ATTRIBUTE, .oid [1, 2, 840, 113549, 1, 9, 3], Std.Rfc5652.ContentType, (some .same)⟩,
   ⟨.CMS_ATTRIBUTE, .oid [1, 2, 840, 113549, 1, 9, 4], Std.Rfc5652.MessageDigest, (some .same)⟩,
   ⟨.CMS_ATTRIBUTE, .oid [1, 2, 840, 113549, 1, 9, 5], Std.Rfc5652.SigningTime, (some .same)⟩,
   ⟨.CMS_ATTRIBUTE, .oid [1, 2, 840, 113549, 1, 9, 25, 3], RandomNonce, (some .same)⟩,
   ⟨.CMS_ATTRIBUTE, .oid [1, 2, 840, 113549, 1, 9, 25, 4], SequenceNumber, (some .same)⟩,
   ⟨.CMS_ATTRIBUTE, .oid [1, 2, 840, 113549, 1, 9, 6], Std.Rfc5652.Countersignature, (some .same)⟩,
   ⟨.CMS_ATTRIBUTE, .oid [1, 2, 840, 113549, 1, 9, 20], (constrained (SIZE 1 255) BMPString), (some .same)⟩,
   ⟨.CMS_ATTRIBUTE, .oid [1, 2, 840, 113549, 1, 9, 21], OCTET_STRING, (some .same)⟩,
   ⟨.CMS_ATTRIBUTE, .oid [1, 2, 840, 113549, 1, 9, 13], (CHOICE [
    mandatory "teletexString" (constrained (SIZE 1 255) TeletexString),
    mandatory "printableString" (constrained (SIZE 1 255) PrintableString),
    mandatory "universalString" (constrained (SIZE 1 255) UniversalString),
    mandatory "utf8String" (constrained (SIZE 1 255) UTF8String),
    mandatory "bmpString" (constrained (SIZE 1 255) BMPString)]), (some .same)⟩,
   ⟨.CMS_ATTRIBUTE, .oid [1, 2, 840, 113549, 1, 9, 15], Std.Rfc5751.SMIMECapabilities, none⟩]

def unlisted : List (ObjClass × Val) :=
  []

def registered : Objects := ⟨Verif.Rfc2985.asModule, objects, unlisted⟩

end Rfc2985
end Std
end Verif
