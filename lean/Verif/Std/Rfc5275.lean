import Verif.Spec.Grade
import Verif.Gen.Rfc5275
import Verif.Std.Rfc5280
import Verif.Std.Rfc5652
import Verif.Std.Rfc5751
import Verif.Std.Rfc5755

/-! The ASN.1 of tools/std/rfc5275.asn1 (generated by tools/stdgen.py). -/

namespace Verif
namespace Std
namespace Rfc5275

open Asn1 Spec.X680

/-- `GLInfo ::=` -/
def GLInfo : Ty :=
  SEQUENCE [
    mandatory "glName" Std.Rfc5280.GeneralName,
    mandatory "glAddress" Std.Rfc5280.GeneralName]

/-- `Certificates ::=` -/
def Certificates : Ty :=
  SEQUENCE [
    optional "pKC" (implicit .context 0 Std.Rfc5280.Certificate),
    optional "aC" (implicit .context 1 (constrained (SIZE_MAX 1) (SEQUENCE_OF Std.Rfc5755.AttributeCertificate))),
    optional "certPath" (implicit .context 2 Std.Rfc5652.CertificateSet)]

/-- `GLOwnerInfo ::=` -/
def GLOwnerInfo : Ty :=
  SEQUENCE [
    mandatory "glOwnerName" Std.Rfc5280.GeneralName,
    mandatory "glOwnerAddress" Std.Rfc5280.GeneralName,
    optional "certificates" Certificates]

/-- `GLAdministration ::=` -/
def GLAdministration : Ty :=
  named [("unmanaged", 0), ("managed", 1), ("closed", 2)] INTEGER

/-- `GLKeyAttributes ::=` -/
def GLKeyAttributes : Ty :=
  SEQUENCE [
    default "rekeyControlledByGLO" (implicit .context 0 BOOLEAN) (.int 0),
    default "recipientsNotMutuallyAware" (implicit .context 1 BOOLEAN) (.int 1),
    default "duration" (implicit .context 2 INTEGER) (.int 0),
    default "generationCounter" (implicit .context 3 INTEGER) (.int 2),
    default "requestedAlgorithm" (implicit .context 4 Std.Rfc5751.SMIMECapability) (.record (.ofList [(.oid [2, 16, 840, 1, 101, 3, 4, 1, 5]), .absent]))]

/-- `GLUseKEK ::=` -/
def GLUseKEK : Ty :=
  SEQUENCE [
    mandatory "glInfo" GLInfo,
    mandatory "glOwnerInfo" (constrained (SIZE_MAX 1) (SEQUENCE_OF GLOwnerInfo)),
    default "glAdministration" GLAdministration (.int 1),
    optional "glKeyAttributes" GLKeyAttributes]

/-- `DeleteGL ::=` -/
def DeleteGL : Ty :=
  Std.Rfc5280.GeneralName

/-- `GLMember ::=` -/
def GLMember : Ty :=
  SEQUENCE [
    mandatory "glMemberName" Std.Rfc5280.GeneralName,
    optional "glMemberAddress" Std.Rfc5280.GeneralName,
    optional "certificates" Certificates]

/-- `GLAddMember ::=` -/
def GLAddMember : Ty :=
  SEQUENCE [
    mandatory "glName" Std.Rfc5280.GeneralName,
    mandatory "glMember" GLMember]

/-- `GLDeleteMember ::=` -/
def GLDeleteMember : Ty :=
  SEQUENCE [
    mandatory "glName" Std.Rfc5280.GeneralName,
    mandatory "glMemberToDelete" Std.Rfc5280.GeneralName]

/-- `GLNewKeyAttributes ::=` -/
def GLNewKeyAttributes : Ty :=
  SEQUENCE [
    optional "rekeyControlledByGLO" (implicit .context 0 BOOLEAN),
    optional "recipientsNotMutuallyAware" (implicit .context 1 BOOLEAN),
    optional "duration" (implicit .context 2 INTEGER),
    optional "generationCounter" (implicit .context 3 INTEGER),
    optional "requestedAlgorithm" (implicit .context 4 Std.Rfc5280.AlgorithmIdentifier)]

/-- `GLRekey ::=` -/
def GLRekey : Ty :=
  SEQUENCE [
    mandatory "glName" Std.Rfc5280.GeneralName,
    optional "glAdministration" GLAdministration,
    optional "glNewKeyAttributes" GLNewKeyAttributes,
    optional "glRekeyAllGLKeys" BOOLEAN]

/-- `GLOwnerAdministration ::=` -/
def GLOwnerAdministration : Ty :=
  SEQUENCE [
    mandatory "glName" Std.Rfc5280.GeneralName,
    mandatory "glOwnerInfo" GLOwnerInfo]

/-- `GLKCompromise ::=` -/
def GLKCompromise : Ty :=
  Std.Rfc5280.GeneralName

/-- `Date ::=` -/
def Date : Ty :=
  SEQUENCE [
    mandatory "start" GeneralizedTime,
    optional "end" GeneralizedTime]

/-- `GLKRefresh ::=` -/
def GLKRefresh : Ty :=
  SEQUENCE [
    mandatory "glName" Std.Rfc5280.GeneralName,
    mandatory "dates" (constrained (SIZE_MAX 1) (SEQUENCE_OF Date))]

/-- `GLAQueryRequest ::=` -/
def GLAQueryRequest : Ty :=
  SEQUENCE [
    mandatory "glaRequestType" OBJECT_IDENTIFIER,
    mandatory "glaRequestValue" ANY]

/-- `GLAQueryResponse ::=` -/
def GLAQueryResponse : Ty :=
  SEQUENCE [
    mandatory "glaResponseType" OBJECT_IDENTIFIER,
    mandatory "glaResponseValue" ANY]

/-- `SKDAlgRequest ::=` -/
def SKDAlgRequest : Ty :=
  NULL

/-- `GLManageCert ::=` -/
def GLManageCert : Ty :=
  SEQUENCE [
    mandatory "glName" Std.Rfc5280.GeneralName,
    mandatory "glMember" GLMember]

/-- `GLKey ::=` -/
def GLKey : Ty :=
  SEQUENCE [
    mandatory "glName" Std.Rfc5280.GeneralName,
    mandatory "glIdentifier" Std.Rfc5652.KEKIdentifier,
    mandatory "glkWrapped" Std.Rfc5652.RecipientInfos,
    mandatory "glkAlgorithm" Std.Rfc5280.AlgorithmIdentifier,
    mandatory "glkNotBefore" GeneralizedTime,
    mandatory "glkNotAfter" GeneralizedTime]

/-- `SKDFailInfo ::=` -/
def SKDFailInfo : Ty :=
  named [("unspecified", 0), ("closedGL", 1), ("unsupportedDuration", 2), ("noGLACertificate", 3), ("invalidCert", 4), ("unsupportedAlgorithm", 5), ("noGLONameMatch", 6), ("invalidGLName", 7), ("nameAlreadyInUse", 8), ("noSpam", 9), ("alreadyAMember", 11), ("notAMember", 12), ("alreadyAnOwner", 13), ("notAnOwner", 14)] INTEGER

/-- Classes of rfc5275.py and the types of the standard they implement. -/
def entries : List Entry :=
  [⟨"rfc5275.AlgorithmIdentifier", Verif.Rfc5275.AlgorithmIdentifier, Std.Rfc5280.AlgorithmIdentifier, .same, false⟩,
   ⟨"rfc5275.Certificate", Verif.Rfc5275.Certificate, Std.Rfc5280.Certificate, .same, false⟩,
   ⟨"rfc5275.GeneralName", Verif.Rfc5275.GeneralName, Std.Rfc5280.GeneralName, .same, false⟩,
   ⟨"rfc5275.CertificateSet", Verif.Rfc5275.CertificateSet, Std.Rfc5652.CertificateSet, .same, false⟩,
   ⟨"rfc5275.KEKIdentifier", Verif.Rfc5275.KEKIdentifier, Std.Rfc5652.KEKIdentifier, .same, false⟩,
   ⟨"rfc5275.RecipientInfos", Verif.Rfc5275.RecipientInfos, Std.Rfc5652.RecipientInfos, .same, false⟩,
   ⟨"rfc5275.SMIMECapability", Verif.Rfc5275.SMIMECapability, Std.Rfc5751.SMIMECapability, .same, false⟩,
   ⟨"rfc5275.AttributeCertificate", Verif.Rfc5275.AttributeCertificate, Std.Rfc5755.AttributeCertificate, .same, false⟩,
   ⟨"rfc5275.Certificates", Verif.Rfc5275.Certificates, Certificates, .same, false⟩,
   ⟨"rfc5275.GLInfo", Verif.Rfc5275.GLInfo, GLInfo, .same, false⟩,
   ⟨"rfc5275.GLOwnerInfo", Verif.Rfc5275.GLOwnerInfo, GLOwnerInfo, .same, false⟩,
   ⟨"rfc5275.GLAdministration", Verif.Rfc5275.GLAdministration, GLAdministration, .same, false⟩,
   ⟨"rfc5275.GLKeyAttributes", Verif.Rfc5275.GLKeyAttributes, GLKeyAttributes, .same, false⟩,
   ⟨"rfc5275.GLUseKEK", Verif.Rfc5275.GLUseKEK, GLUseKEK, .same, false⟩,
   ⟨"rfc5275.DeleteGL", Verif.Rfc5275.DeleteGL, DeleteGL, .same, false⟩,
   ⟨"rfc5275.GLMember", Verif.Rfc5275.GLMember, GLMember, .same, false⟩,
   ⟨"rfc5275.GLAddMember", Verif.Rfc5275.GLAddMember, GLAddMember, .same, false⟩,
   ⟨"rfc5275.GLDeleteMember", Verif.Rfc5275.GLDeleteMember, GLDeleteMember, .same, false⟩,
   ⟨"rfc5275.GLNewKeyAttributes", Verif.Rfc5275.GLNewKeyAttributes, GLNewKeyAttributes, .same, false⟩,
   ⟨"rfc5275.GLRekey", Verif.Rfc5275.GLRekey, GLRekey, .same, false⟩,
   ⟨"rfc5275.GLOwnerAdministration", Verif.Rfc5275.GLOwnerAdministration, GLOwnerAdministration, .same, false⟩,
   ⟨"rfc5275.GLKCompromise", Verif.Rfc5275.GLKCompromise, GLKCompromise, .same, false⟩,
   ⟨"rfc5275.Date", Verif.Rfc5275.Date, Date, .same, false⟩,
   ⟨"rfc5275.GLKRefresh", Verif.Rfc5275.GLKRefresh, GLKRefresh, .same, false⟩,
   ⟨"rfc5275.GLAQueryRequest", Verif.Rfc5275.GLAQueryRequest, GLAQueryRequest, .same, false⟩,
   ⟨"rfc5275.GLAQueryResponse", Verif.Rfc5275.GLAQueryResponse, GLAQueryResponse, .same, false⟩,
   ⟨"rfc5275.SKDAlgRequest", Verif.Rfc5275.SKDAlgRequest, SKDAlgRequest, .same, false⟩,
   ⟨"rfc5275.SMIMECapabilities", Verif.Rfc5275.SMIMECapabilities, Std.Rfc5751.SMIMECapabilities, .same, false⟩,
   ⟨"rfc5275.GLManageCert", Verif.Rfc5275.GLManageCert, GLManageCert, .same, false⟩,
   ⟨"rfc5275.GLKey", Verif.Rfc5275.GLKey, GLKey, .same, false⟩,
   ⟨"rfc5275.SKDFailInfo", Verif.Rfc5275.SKDFailInfo, SKDFailInfo, .same, false⟩]

/-- Classes of rfc5275.py the transcription of the standard has no type for. -/
def beyond : List String :=
  []

/-- Constants of rfc5275.py and the values the standard gives them. -/
def constants : List Constant :=
  [⟨"rfc5275.id_aes128_wrap", Verif.Rfc5275.id_aes128_wrap, OBJECT_IDENTIFIER, .oid [2, 16, 840, 1, 101, 3, 4, 1, 5], true⟩,
   ⟨"rfc5275.id_skd", Verif.Rfc5275.id_skd, OBJECT_IDENTIFIER, .oid [1, 2, 840, 113549, 1, 9, 16, 8], true⟩,
   ⟨"rfc5275.id_skd_glUseKEK", Verif.Rfc5275.id_skd_glUseKEK, OBJECT_IDENTIFIER, .oid [1, 2, 840, 113549, 1, 9, 16, 8, 1], true⟩,
   ⟨"rfc5275.id_skd_glDelete", Verif.Rfc5275.id_skd_glDelete, OBJECT_IDENTIFIER, .oid [1, 2, 840, 113549, 1, 9, 16, 8, 2], true⟩,
   ⟨"rfc5275.id_skd_glAddMember", Verif.Rfc5275.id_skd_glAddMember, OBJECT_IDENTIFIER, .oid [1, 2, 840, 113549, 1, 9, 16, 8, 3], true⟩,
   ⟨"rfc5275.id_skd_glDeleteMember", Verif.Rfc5275.id_skd_glDeleteMember, OBJECT_IDENTIFIER, .oid [1, 2, 840, 113549, 1, 9, 16, 8, 4], true⟩,
   ⟨"rfc5275.id_skd_glRekey", Verif.Rfc5275.id_skd_glRekey, OBJECT_IDENTIFIER, .oid [1, 2, 840, 113549, 1, 9, 16, 8, 5], true⟩,
   ⟨"rfc5275.id_skd_glAddOwner", Verif.Rfc5275.id_skd_glAddOwner, OBJECT_IDENTIFIER, .oid [1, 2, 840, 113549, 1, 9, 16, 8, 6], true⟩,
   ⟨"rfc5275.id_skd_glRemoveOwner", Verif.Rfc5275.id_skd_glRemoveOwner, OBJECT_IDENTIFIER, .oid [1, 2, 840, 113549, 1, 9, 16, 8, 7], true⟩,
   ⟨"rfc5275.id_skd_glKeyCompromise", Verif.Rfc5275.id_skd_glKeyCompromise, OBJECT_IDENTIFIER, .oid [1, 2, 840, 113549, 1, 9, 16, 8, 8], true⟩,
   ⟨"rfc5275.id_skd_glkRefresh", Verif.Rfc5275.id_skd_glkRefresh, OBJECT_IDENTIFIER, .oid [1, 2, 840, 113549, 1, 9, 16, 8, 9], true⟩,
   ⟨"rfc5275.id_skd_glaQueryRequest", Verif.Rfc5275.id_skd_glaQueryRequest, OBJECT_IDENTIFIER, .oid [1, 2, 840, 113549, 1, 9, 16, 8, 11], true⟩,
   ⟨"rfc5275.id_skd_glaQueryResponse", Verif.Rfc5275.id_skd_glaQueryResponse, OBJECT_IDENTIFIER, .oid [1, 2, 840, 113549, 1, 9, 16, 8, 12], true⟩,
   ⟨"rfc5275.id_cmc_glaRR", Verif.Rfc5275.id_cmc_glaRR, OBJECT_IDENTIFIER, .oid [1, 3, 6, 1, 5, 5, 7, 7, 99], true⟩,
   ⟨"rfc5275.id_cmc_gla_skdAlgRequest", Verif.Rfc5275.id_cmc_gla_skdAlgRequest, OBJECT_IDENTIFIER, .oid [1, 3, 6, 1, 5, 5, 7, 7, 99, 1], true⟩,
   ⟨"rfc5275.id_cmc_gla_skdAlgResponse", Verif.Rfc5275.id_cmc_gla_skdAlgResponse, OBJECT_IDENTIFIER, .oid [1, 3, 6, 1, 5, 5, 7, 7, 99, 2], true⟩,
   ⟨"rfc5275.id_skd_glProvideCert", Verif.Rfc5275.id_skd_glProvideCert, OBJECT_IDENTIFIER, .oid [1, 2, 840, 113549, 1, 9, 16, 8, 13], true⟩,
   ⟨"rfc5275.id_skd_glManageCert", Verif.Rfc5275.id_skd_glManageCert, OBJECT_IDENTIFIER, .oid [1, 2, 840, 113549, 1, 9, 16, 8, 14], true⟩,
   ⟨"rfc5275.id_skd_glKey", Verif.Rfc5275.id_skd_glKey, OBJECT_IDENTIFIER, .oid [1, 2, 840, 113549, 1, 9, 16, 8, 15], true⟩,
   ⟨"rfc5275.id_cet_skdFailInfo", Verif.Rfc5275.id_cet_skdFailInfo, OBJECT_IDENTIFIER, .oid [1, 3, 6, 1, 5, 5, 7, 15, 1], true⟩]

/-- Constants of rfc5275.py the transcription of the standard has no value for. -/
def others : List String :=
  ["rfc5275.requested_algorithm"]

def standard : Standard := ⟨Verif.Rfc5275.asModule, entries, beyond, constants, others⟩

end Rfc5275
end Std
end Verif
