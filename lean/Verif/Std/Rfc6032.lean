import Verif.Spec.Grade
import Verif.Gen.Rfc6032
import Verif.Std.Rfc5083
import Verif.Std.Rfc5652

/-! The ASN.1 of tools/std/rfc6032.asn1 (generated by tools/stdgen.py). -/

namespace Verif
namespace Std
namespace Rfc6032

open Asn1 Spec.X680

/-- `EncryptedKeyPackage ::=` -/
def EncryptedKeyPackage : Ty :=
  CHOICE [
    mandatory "encrypted" Std.Rfc5652.EncryptedData,
    mandatory "enveloped" (implicit .context 0 Std.Rfc5652.EnvelopedData),
    mandatory "authEnveloped" (implicit .context 1 Std.Rfc5083.AuthEnvelopedData)]

/-- `ContentDecryptKeyID ::=` -/
def ContentDecryptKeyID : Ty :=
  OCTET_STRING

/-- Classes of rfc6032.py and the types of the standard they implement. -/
def entries : List Entry :=
  [⟨"rfc6032.ContentDecryptKeyID", Verif.Rfc6032.ContentDecryptKeyID, ContentDecryptKeyID, .same, false⟩,
   ⟨"rfc6032.EncryptedKeyPackage", Verif.Rfc6032.EncryptedKeyPackage, EncryptedKeyPackage, .same, false⟩]

/-- Classes of rfc6032.py the transcription of the standard has no type for. -/
def beyond : List String :=
  []

/-- Constants of rfc6032.py and the values the standard gives them. -/
def constants : List Constant :=
  [⟨"rfc6032.id_aa_KP_contentDecryptKeyID", Verif.Rfc6032.id_aa_KP_contentDecryptKeyID, OBJECT_IDENTIFIER, .oid [2, 16, 840, 1, 101, 2, 1, 5, 66], true⟩,
   ⟨"rfc6032.id_ct_KP_encryptedKeyPkg", Verif.Rfc6032.id_ct_KP_encryptedKeyPkg, OBJECT_IDENTIFIER, .oid [2, 16, 840, 1, 101, 2, 1, 2, 78, 2], true⟩]

/-- Constants of rfc6032.py the transcription of the standard has no value for. -/
def others : List String :=
  ["rfc6032.aa_content_decrypt_key_identifier"]

def standard : Standard := ⟨Verif.Rfc6032.asModule, entries, beyond, constants, others⟩

end Rfc6032
end Std
end Verif
