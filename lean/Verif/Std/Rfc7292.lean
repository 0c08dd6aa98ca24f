import Verif.Spec.Grade
import Verif.Gen.Rfc7292
import Verif.Std.Rfc2315
import Verif.Std.Rfc5958

/-! The ASN.1 of tools/std/rfc7292.asn1 (generated by tools/stdgen.py). -/

namespace Verif
namespace Std
namespace Rfc7292

open Asn1 Spec.X680

/-- `MacData ::=` -/
def MacData : Ty :=
  SEQUENCE [
    mandatory "mac" Std.Rfc2315.DigestInfo,
    mandatory "macSalt" OCTET_STRING,
    default "iterations" INTEGER (.int 1)]

/-- `PFX ::=` -/
def PFX : Ty :=
  SEQUENCE [
    mandatory "version" (named [("v3", 3)] INTEGER),
    mandatory "authSafe" Std.Rfc2315.ContentInfo,
    optional "macData" MacData]

/-- `AuthenticatedSafe ::=` -/
def AuthenticatedSafe : Ty :=
  SEQUENCE_OF Std.Rfc2315.ContentInfo

/-- `PKCS12Attribute ::=` -/
def PKCS12Attribute : Ty :=
  SEQUENCE [
    mandatory "attrId" OBJECT_IDENTIFIER,
    mandatory "attrValues" (SET_OF ANY)]

/-- `SafeBag ::=` -/
def SafeBag : Ty :=
  SEQUENCE [
    mandatory "bagId" OBJECT_IDENTIFIER,
    mandatory "bagValue" (explicit .context 0 ANY),
    optional "bagAttributes" (SET_OF PKCS12Attribute)]

/-- `SafeContents ::=` -/
def SafeContents : Ty :=
  SEQUENCE_OF SafeBag

/-- `KeyBag ::=` -/
def KeyBag : Ty :=
  Std.Rfc5958.PrivateKeyInfo

/-- `PKCS8ShroudedKeyBag ::=` -/
def PKCS8ShroudedKeyBag : Ty :=
  Std.Rfc5958.EncryptedPrivateKeyInfo

/-- `CertBag ::=` -/
def CertBag : Ty :=
  SEQUENCE [
    mandatory "certId" OBJECT_IDENTIFIER,
    mandatory "certValue" (explicit .context 0 ANY)]

/-- `CRLBag ::=` -/
def CRLBag : Ty :=
  SEQUENCE [
    mandatory "crlId" OBJECT_IDENTIFIER,
    mandatory "crlValue" (explicit .context 0 ANY)]

/-- `SecretBag ::=` -/
def SecretBag : Ty :=
  SEQUENCE [
    mandatory "secretTypeId" OBJECT_IDENTIFIER,
    mandatory "secretValue" (explicit .context 0 ANY)]

/-- `PKCS12PbeParams ::=` -/
def PKCS12PbeParams : Ty :=
  SEQUENCE [
    mandatory "salt" OCTET_STRING,
    mandatory "iterations" INTEGER]

/-- `Pkcs-12PbeParams ::=` -/
def Pkcs_12PbeParams : Ty :=
  SEQUENCE [
    mandatory "salt" OCTET_STRING,
    mandatory "iterations" INTEGER]

/-- Classes of rfc7292.py and the types of the standard they implement. -/
def entries : List Entry :=
  [⟨"rfc7292.DigestInfo", Verif.Rfc7292.DigestInfo, Std.Rfc2315.DigestInfo, .same, false⟩,
   ⟨"rfc7292.ContentInfo", Verif.Rfc7292.ContentInfo, Std.Rfc2315.ContentInfo, (.refused [48, 3, 6, 1, 43]), false⟩,
   ⟨"rfc7292.PKCS12Attribute", Verif.Rfc7292.PKCS12Attribute, PKCS12Attribute, .same, true⟩,
   ⟨"rfc7292.EncryptedPrivateKeyInfo", Verif.Rfc7292.EncryptedPrivateKeyInfo, Std.Rfc5958.EncryptedPrivateKeyInfo, .same, false⟩,
   ⟨"rfc7292.PrivateKeyInfo", Verif.Rfc7292.PrivateKeyInfo, Std.Rfc5958.PrivateKeyInfo, .same, false⟩,
   ⟨"rfc7292.Pkcs_12PbeParams", Verif.Rfc7292.Pkcs_12PbeParams, Pkcs_12PbeParams, .same, false⟩,
   ⟨"rfc7292.KeyBag", Verif.Rfc7292.KeyBag, KeyBag, .same, false⟩,
   ⟨"rfc7292.PKCS8ShroudedKeyBag", Verif.Rfc7292.PKCS8ShroudedKeyBag, PKCS8ShroudedKeyBag, .same, false⟩,
   ⟨"rfc7292.CertBag", Verif.Rfc7292.CertBag, CertBag, .same, false⟩,
   ⟨"rfc7292.CRLBag", Verif.Rfc7292.CRLBag, CRLBag, .same, false⟩,
   ⟨"rfc7292.SecretBag", Verif.Rfc7292.SecretBag, SecretBag, .same, false⟩,
   ⟨"rfc7292.SafeBag", Verif.Rfc7292.SafeBag, SafeBag, .same, true⟩,
   ⟨"rfc7292.SafeContents", Verif.Rfc7292.SafeContents, SafeContents, .same, true⟩,
   ⟨"rfc7292.AuthenticatedSafe", Verif.Rfc7292.AuthenticatedSafe, AuthenticatedSafe, (.refused [48, 5, 48, 3, 6, 1, 43]), false⟩,
   ⟨"rfc7292.MacData", Verif.Rfc7292.MacData, MacData, .same, false⟩,
   ⟨"rfc7292.PFX", Verif.Rfc7292.PFX, PFX, (.refused [48, 8, 2, 1, 0, 48, 3, 6, 1, 43]), false⟩]

/-- Classes of rfc7292.py the transcription of the standard has no type for. -/
def beyond : List String :=
  ["rfc7292.AttributeType",
   "rfc7292.AttributeValue",
   "rfc7292.AttributeValues",
   "rfc7292.CMSSingleAttribute",
   "rfc7292.BAG_TYPE",
   "rfc7292.FriendlyName"]

/-- Constants of rfc7292.py and the values the standard gives them. -/
def constants : List Constant :=
  [⟨"rfc7292.rsadsi", Verif.Rfc7292.rsadsi, OBJECT_IDENTIFIER, .oid [1, 2, 840, 113549], true⟩,
   ⟨"rfc7292.pkcs", Verif.Rfc7292.pkcs, OBJECT_IDENTIFIER, .oid [1, 2, 840, 113549, 1], true⟩,
   ⟨"rfc7292.pkcs_9", Verif.Rfc7292.pkcs_9, OBJECT_IDENTIFIER, .oid [1, 2, 840, 113549, 1, 9], true⟩,
   ⟨"rfc7292.certTypes", Verif.Rfc7292.certTypes, OBJECT_IDENTIFIER, .oid [1, 2, 840, 113549, 1, 9, 22], true⟩,
   ⟨"rfc7292.crlTypes", Verif.Rfc7292.crlTypes, OBJECT_IDENTIFIER, .oid [1, 2, 840, 113549, 1, 9, 23], true⟩,
   ⟨"rfc7292.pkcs_12", Verif.Rfc7292.pkcs_12, OBJECT_IDENTIFIER, .oid [1, 2, 840, 113549, 1, 12], true⟩,
   ⟨"rfc7292.pkcs_12PbeIds", Verif.Rfc7292.pkcs_12PbeIds, OBJECT_IDENTIFIER, .oid [1, 2, 840, 113549, 1, 12, 1], true⟩,
   ⟨"rfc7292.pbeWithSHAAnd128BitRC4", Verif.Rfc7292.pbeWithSHAAnd128BitRC4, OBJECT_IDENTIFIER, .oid [1, 2, 840, 113549, 1, 12, 1, 1], true⟩,
   ⟨"rfc7292.pbeWithSHAAnd40BitRC4", Verif.Rfc7292.pbeWithSHAAnd40BitRC4, OBJECT_IDENTIFIER, .oid [1, 2, 840, 113549, 1, 12, 1, 2], true⟩,
   ⟨"rfc7292.pbeWithSHAAnd3_KeyTripleDES_CBC", Verif.Rfc7292.pbeWithSHAAnd3_KeyTripleDES_CBC, OBJECT_IDENTIFIER, .oid [1, 2, 840, 113549, 1, 12, 1, 3], true⟩,
   ⟨"rfc7292.pbeWithSHAAnd2_KeyTripleDES_CBC", Verif.Rfc7292.pbeWithSHAAnd2_KeyTripleDES_CBC, OBJECT_IDENTIFIER, .oid [1, 2, 840, 113549, 1, 12, 1, 4], true⟩,
   ⟨"rfc7292.pbeWithSHAAnd128BitRC2_CBC", Verif.Rfc7292.pbeWithSHAAnd128BitRC2_CBC, OBJECT_IDENTIFIER, .oid [1, 2, 840, 113549, 1, 12, 1, 5], true⟩,
   ⟨"rfc7292.pbeWithSHAAnd40BitRC2_CBC", Verif.Rfc7292.pbeWithSHAAnd40BitRC2_CBC, OBJECT_IDENTIFIER, .oid [1, 2, 840, 113549, 1, 12, 1, 6], true⟩,
   ⟨"rfc7292.bagtypes", Verif.Rfc7292.bagtypes, OBJECT_IDENTIFIER, .oid [1, 2, 840, 113549, 1, 12, 10, 1], true⟩,
   ⟨"rfc7292.id_keyBag", Verif.Rfc7292.id_keyBag, OBJECT_IDENTIFIER, .oid [1, 2, 840, 113549, 1, 12, 10, 1, 1], true⟩,
   ⟨"rfc7292.id_pkcs8ShroudedKeyBag", Verif.Rfc7292.id_pkcs8ShroudedKeyBag, OBJECT_IDENTIFIER, .oid [1, 2, 840, 113549, 1, 12, 10, 1, 2], true⟩,
   ⟨"rfc7292.id_certBag", Verif.Rfc7292.id_certBag, OBJECT_IDENTIFIER, .oid [1, 2, 840, 113549, 1, 12, 10, 1, 3], true⟩,
   ⟨"rfc7292.id_CRLBag", Verif.Rfc7292.id_CRLBag, OBJECT_IDENTIFIER, .oid [1, 2, 840, 113549, 1, 12, 10, 1, 4], true⟩,
   ⟨"rfc7292.id_secretBag", Verif.Rfc7292.id_secretBag, OBJECT_IDENTIFIER, .oid [1, 2, 840, 113549, 1, 12, 10, 1, 5], true⟩,
   ⟨"rfc7292.id_safeContentsBag", Verif.Rfc7292.id_safeContentsBag, OBJECT_IDENTIFIER, .oid [1, 2, 840, 113549, 1, 12, 10, 1, 6], true⟩]

/-- Constants of rfc7292.py the transcription of the standard has no value for. -/
def others : List String :=
  ["rfc7292.pkcs_9_at_localKeyId",
   "rfc7292.pkcs_9_ub_pkcs9String",
   "rfc7292.pkcs_9_ub_friendlyName",
   "rfc7292.pkcs_9_at_friendlyName",
   "rfc7292.x509Certificate",
   "rfc7292.sdsiCertificate",
   "rfc7292.x509CRL",
   "rfc7292.localKeyId",
   "rfc7292.friendlyName"]

def standard : Standard := ⟨Verif.Rfc7292.asModule, entries, beyond, constants, others⟩

end Rfc7292
end Std
end Verif
