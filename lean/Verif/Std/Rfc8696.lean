import Verif.Spec.Grade
import Verif.Gen.Rfc8696
import Verif.Std.Rfc5652

/-! The ASN.1 of tools/std/rfc8696.asn1 (generated by tools/stdgen.py). -/

namespace Verif
namespace Std
namespace Rfc8696

open Asn1 Spec.X680

/-- `PreSharedKeyIdentifier ::=` -/
def PreSharedKeyIdentifier : Ty :=
  OCTET_STRING

/-- `KeyTransRecipientInfos ::=` -/
def KeyTransRecipientInfos : Ty :=
  SEQUENCE_OF Std.Rfc5652.KeyTransRecipientInfo

/-- `KeyTransPSKRecipientInfo ::=` -/
def KeyTransPSKRecipientInfo : Ty :=
  SEQUENCE [
    mandatory "version" Std.Rfc5652.CMSVersion,
    mandatory "pskid" PreSharedKeyIdentifier,
    mandatory "kdfAlgorithm" Std.Rfc5652.KeyDerivationAlgorithmIdentifier,
    mandatory "keyEncryptionAlgorithm" Std.Rfc5652.KeyEncryptionAlgorithmIdentifier,
    mandatory "ktris" KeyTransRecipientInfos,
    mandatory "encryptedKey" Std.Rfc5652.EncryptedKey]

/-- `KeyAgreePSKRecipientInfo ::=` -/
def KeyAgreePSKRecipientInfo : Ty :=
  SEQUENCE [
    mandatory "version" Std.Rfc5652.CMSVersion,
    mandatory "pskid" PreSharedKeyIdentifier,
    mandatory "originator" (explicit .context 0 Std.Rfc5652.OriginatorIdentifierOrKey),
    optional "ukm" (explicit .context 1 Std.Rfc5652.UserKeyingMaterial),
    mandatory "kdfAlgorithm" Std.Rfc5652.KeyDerivationAlgorithmIdentifier,
    mandatory "keyEncryptionAlgorithm" Std.Rfc5652.KeyEncryptionAlgorithmIdentifier,
    mandatory "recipientEncryptedKeys" Std.Rfc5652.RecipientEncryptedKeys]

/-- `CMSORIforPSKOtherInfo ::=` -/
def CMSORIforPSKOtherInfo : Ty :=
  SEQUENCE [
    mandatory "psk" OCTET_STRING,
    mandatory "keyMgmtAlgType" (named [("keyTrans", 5), ("keyAgree", 10)] ENUMERATED),
    mandatory "keyEncryptionAlgorithm" Std.Rfc5652.KeyEncryptionAlgorithmIdentifier,
    mandatory "pskLength" (constrained (RANGE_MAX 1) INTEGER),
    mandatory "kdkLength" (constrained (RANGE_MAX 1) INTEGER)]

/-- Classes of rfc8696.py and the types of the standard they implement. -/
def entries : List Entry :=
  [⟨"rfc8696.PreSharedKeyIdentifier", Verif.Rfc8696.PreSharedKeyIdentifier, PreSharedKeyIdentifier, .same, false⟩,
   ⟨"rfc8696.KeyTransRecipientInfos", Verif.Rfc8696.KeyTransRecipientInfos, KeyTransRecipientInfos, .same, false⟩,
   ⟨"rfc8696.KeyTransPSKRecipientInfo", Verif.Rfc8696.KeyTransPSKRecipientInfo, KeyTransPSKRecipientInfo, .same, false⟩,
   ⟨"rfc8696.KeyAgreePSKRecipientInfo", Verif.Rfc8696.KeyAgreePSKRecipientInfo, KeyAgreePSKRecipientInfo, .same, false⟩,
   ⟨"rfc8696.CMSORIforPSKOtherInfo", Verif.Rfc8696.CMSORIforPSKOtherInfo, CMSORIforPSKOtherInfo, .same, false⟩]

/-- Classes of rfc8696.py the transcription of the standard has no type for. -/
def beyond : List String :=
  []

/-- Constants of rfc8696.py and the values the standard gives them. -/
def constants : List Constant :=
  [⟨"rfc8696.id_ori", Verif.Rfc8696.id_ori, OBJECT_IDENTIFIER, .oid [1, 2, 840, 113549, 1, 9, 16, 13], true⟩,
   ⟨"rfc8696.id_ori_keyTransPSK", Verif.Rfc8696.id_ori_keyTransPSK, OBJECT_IDENTIFIER, .oid [1, 2, 840, 113549, 1, 9, 16, 13, 1], true⟩,
   ⟨"rfc8696.id_ori_keyAgreePSK", Verif.Rfc8696.id_ori_keyAgreePSK, OBJECT_IDENTIFIER, .oid [1, 2, 840, 113549, 1, 9, 16, 13, 2], true⟩]

/-- Constants of rfc8696.py the transcription of the standard has no value for. -/
def others : List String :=
  []

def standard : Standard := ⟨Verif.Rfc8696.asModule, entries, beyond, constants, others⟩

end Rfc8696
end Std
end Verif
