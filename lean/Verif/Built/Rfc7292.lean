import Verif.Spec.Built
import Verif.Std.Rfc7292
import Verif.Built.Rfc2315
import Verif.Built.Rfc5958
import Verif.Std.Rfc2315
import Verif.Std.Rfc5652
import Verif.Std.Rfc5958

/-! What rfc7292.py implements, where that is not the standard (generated by tools/builtgen.py). -/

namespace Verif
namespace Built
namespace Rfc7292

open Asn1 Verif.Std Spec.X680 Spec.Built

/-- `ContentInfo ::=`, changed or supplied -/
def ContentInfo : Ty :=
  Std.Rfc5652.ContentInfo

/-- `PFX ::=` -/
def PFX : Ty :=
  SEQUENCE [
    mandatory "version" (named [("v3", 3)] INTEGER),
    mandatory "authSafe" Built.Rfc7292.ContentInfo,
    optional "macData" Std.Rfc7292.MacData]

/-- `AuthenticatedSafe ::=` -/
def AuthenticatedSafe : Ty :=
  SEQUENCE_OF Built.Rfc7292.ContentInfo

/-- `PKCS12Attribute ::=`, changed or supplied -/
def PKCS12Attribute : Ty :=
  Std.Rfc5652.Attribute

/-- `SafeBag ::=` -/
def SafeBag : Ty :=
  SEQUENCE [
    mandatory "bagId" OBJECT_IDENTIFIER,
    mandatory "bagValue" (explicit .context 0 ANY),
    optional "bagAttributes" (SET_OF Built.Rfc7292.PKCS12Attribute)]

/-- `SafeContents ::=` -/
def SafeContents : Ty :=
  SEQUENCE_OF Built.Rfc7292.SafeBag

/-- `AttributeType ::=`, changed or supplied -/
def AttributeType : Ty :=
  OBJECT_IDENTIFIER

/-- `AttributeValue ::=`, changed or supplied -/
def AttributeValue : Ty :=
  ANY

/-- `AttributeValues ::=`, changed or supplied -/
def AttributeValues : Ty :=
  SET_OF Built.Rfc7292.AttributeValue

/-- `CMSSingleAttribute ::=`, changed or supplied -/
def CMSSingleAttribute : Ty :=
  SEQUENCE [
    mandatory "attrType" Built.Rfc7292.AttributeType,
    mandatory "attrValues" (constrained (SIZE 1 1) (SET_OF Built.Rfc7292.AttributeValue))]

/-- `BAG-TYPE ::=`, changed or supplied -/
def BAG_TYPE : Ty :=
  SEQUENCE [
    mandatory "id" OBJECT_IDENTIFIER,
    mandatory "unnamed1" ANY]

/-- `FriendlyName ::=`, changed or supplied -/
def FriendlyName : Ty :=
  constrained (SIZE 1 255) BMPString

def description : Description :=
  ⟨Verif.Rfc7292.asModule,
   [⟨"rfc7292.DigestInfo", Verif.Rfc7292.DigestInfo, Std.Rfc2315.DigestInfo⟩,
    ⟨"rfc7292.ContentInfo", Verif.Rfc7292.ContentInfo, Built.Rfc7292.ContentInfo⟩,
    ⟨"rfc7292.PKCS12Attribute", Verif.Rfc7292.PKCS12Attribute, Built.Rfc7292.PKCS12Attribute⟩,
    ⟨"rfc7292.EncryptedPrivateKeyInfo", Verif.Rfc7292.EncryptedPrivateKeyInfo, Std.Rfc5958.EncryptedPrivateKeyInfo⟩,
    ⟨"rfc7292.PrivateKeyInfo", Verif.Rfc7292.PrivateKeyInfo, Std.Rfc5958.PrivateKeyInfo⟩,
    ⟨"rfc7292.AttributeType", Verif.Rfc7292.AttributeType, Built.Rfc7292.AttributeType⟩,
    ⟨"rfc7292.AttributeValue", Verif.Rfc7292.AttributeValue, Built.Rfc7292.AttributeValue⟩,
    ⟨"rfc7292.AttributeValues", Verif.Rfc7292.AttributeValues, Built.Rfc7292.AttributeValues⟩,
    ⟨"rfc7292.CMSSingleAttribute", Verif.Rfc7292.CMSSingleAttribute, Built.Rfc7292.CMSSingleAttribute⟩,
    ⟨"rfc7292.Pkcs_12PbeParams", Verif.Rfc7292.Pkcs_12PbeParams, Std.Rfc7292.Pkcs_12PbeParams⟩,
    ⟨"rfc7292.BAG_TYPE", Verif.Rfc7292.BAG_TYPE, Built.Rfc7292.BAG_TYPE⟩,
    ⟨"rfc7292.KeyBag", Verif.Rfc7292.KeyBag, Std.Rfc7292.KeyBag⟩,
    ⟨"rfc7292.PKCS8ShroudedKeyBag", Verif.Rfc7292.PKCS8ShroudedKeyBag, Std.Rfc7292.PKCS8ShroudedKeyBag⟩,
    ⟨"rfc7292.CertBag", Verif.Rfc7292.CertBag, Std.Rfc7292.CertBag⟩,
    ⟨"rfc7292.CRLBag", Verif.Rfc7292.CRLBag, Std.Rfc7292.CRLBag⟩,
    ⟨"rfc7292.SecretBag", Verif.Rfc7292.SecretBag, Std.Rfc7292.SecretBag⟩,
    ⟨"rfc7292.SafeBag", Verif.Rfc7292.SafeBag, Built.Rfc7292.SafeBag⟩,
    ⟨"rfc7292.SafeContents", Verif.Rfc7292.SafeContents, Built.Rfc7292.SafeContents⟩,
    ⟨"rfc7292.AuthenticatedSafe", Verif.Rfc7292.AuthenticatedSafe, Built.Rfc7292.AuthenticatedSafe⟩,
    ⟨"rfc7292.MacData", Verif.Rfc7292.MacData, Std.Rfc7292.MacData⟩,
    ⟨"rfc7292.PFX", Verif.Rfc7292.PFX, Built.Rfc7292.PFX⟩,
    ⟨"rfc7292.FriendlyName", Verif.Rfc7292.FriendlyName, Built.Rfc7292.FriendlyName⟩]⟩

end Rfc7292
end Built
end Verif
