import Verif.Spec.Grade
import Verif.Gen.Rfc3161
import Verif.Std.Rfc4210
import Verif.Std.Rfc5280
import Verif.Std.Rfc5652

/-! The ASN.1 of tools/std/rfc3161.asn1 (generated by tools/stdgen.py). -/

namespace Verif
namespace Std
namespace Rfc3161

open Asn1 Spec.X680

/-- `MessageImprint ::=` -/
def MessageImprint : Ty :=
  SEQUENCE [
    mandatory "hashAlgorithm" Std.Rfc5280.AlgorithmIdentifier,
    mandatory "hashedMessage" OCTET_STRING]

/-- `TSAPolicyId ::=` -/
def TSAPolicyId : Ty :=
  OBJECT_IDENTIFIER

/-- `TimeStampReq ::=` -/
def TimeStampReq : Ty :=
  SEQUENCE [
    mandatory "version" (named [("v1", 1)] INTEGER),
    mandatory "messageImprint" MessageImprint,
    optional "reqPolicy" TSAPolicyId,
    optional "nonce" INTEGER,
    default "certReq" BOOLEAN (.int 0),
    optional "extensions" (implicit .context 0 Std.Rfc5280.Extensions)]

/-- `PKIStatus ::=` -/
def PKIStatus : Ty :=
  named [("granted", 0), ("grantedWithMods", 1), ("rejection", 2), ("waiting", 3), ("revocationWarning", 4), ("revocationNotification", 5)] INTEGER

/-- `PKIFailureInfo ::=` -/
def PKIFailureInfo : Ty :=
  named [("badAlg", 0), ("badRequest", 2), ("badDataFormat", 5), ("timeNotAvailable", 14), ("unacceptedPolicy", 15), ("unacceptedExtension", 16), ("addInfoNotAvailable", 17), ("systemFailure", 25)] BIT_STRING

/-- `PKIStatusInfo ::=` -/
def PKIStatusInfo : Ty :=
  SEQUENCE [
    mandatory "status" PKIStatus,
    optional "statusString" Std.Rfc4210.PKIFreeText,
    optional "failInfo" PKIFailureInfo]

/-- `TimeStampToken ::=` -/
def TimeStampToken : Ty :=
  Std.Rfc5652.ContentInfo

/-- `TimeStampResp ::=` -/
def TimeStampResp : Ty :=
  SEQUENCE [
    mandatory "status" PKIStatusInfo,
    optional "timeStampToken" TimeStampToken]

/-- `Accuracy ::=` -/
def Accuracy : Ty :=
  SEQUENCE [
    optional "seconds" INTEGER,
    optional "millis" (implicit .context 0 (constrained (RANGE 1 999) INTEGER)),
    optional "micros" (implicit .context 1 (constrained (RANGE 1 999) INTEGER))]

/-- `TSTInfo ::=` -/
def TSTInfo : Ty :=
  SEQUENCE [
    mandatory "version" (named [("v1", 1)] INTEGER),
    mandatory "policy" TSAPolicyId,
    mandatory "messageImprint" MessageImprint,
    mandatory "serialNumber" INTEGER,
    mandatory "genTime" GeneralizedTime,
    optional "accuracy" Accuracy,
    default "ordering" BOOLEAN (.int 0),
    optional "nonce" INTEGER,
    optional "tsa" (implicit .context 0 Std.Rfc5280.GeneralName),
    optional "extensions" (implicit .context 1 Std.Rfc5280.Extensions)]

/-- Classes of rfc3161.py and the types of the standard they implement. -/
def entries : List Entry :=
  [⟨"rfc3161.Extensions", Verif.Rfc3161.Extensions, Std.Rfc5280.Extensions, .same, false⟩,
   ⟨"rfc3161.AlgorithmIdentifier", Verif.Rfc3161.AlgorithmIdentifier, Std.Rfc5280.AlgorithmIdentifier, .same, false⟩,
   ⟨"rfc3161.GeneralName", Verif.Rfc3161.GeneralName, Std.Rfc5280.GeneralName, .same, false⟩,
   ⟨"rfc3161.ContentInfo", Verif.Rfc3161.ContentInfo, Std.Rfc5652.ContentInfo, .same, false⟩,
   ⟨"rfc3161.PKIFreeText", Verif.Rfc3161.PKIFreeText, Std.Rfc4210.PKIFreeText, .same, false⟩,
   ⟨"rfc3161.Accuracy", Verif.Rfc3161.Accuracy, Accuracy, .same, false⟩,
   ⟨"rfc3161.MessageImprint", Verif.Rfc3161.MessageImprint, MessageImprint, .same, false⟩,
   ⟨"rfc3161.PKIFailureInfo", Verif.Rfc3161.PKIFailureInfo, PKIFailureInfo, .same, false⟩,
   ⟨"rfc3161.PKIStatus", Verif.Rfc3161.PKIStatus, PKIStatus, .same, false⟩,
   ⟨"rfc3161.PKIStatusInfo", Verif.Rfc3161.PKIStatusInfo, PKIStatusInfo, .same, false⟩,
   ⟨"rfc3161.TSAPolicyId", Verif.Rfc3161.TSAPolicyId, TSAPolicyId, .same, false⟩,
   ⟨"rfc3161.TSTInfo", Verif.Rfc3161.TSTInfo, TSTInfo, .same, false⟩,
   ⟨"rfc3161.TimeStampReq", Verif.Rfc3161.TimeStampReq, TimeStampReq, .same, false⟩,
   ⟨"rfc3161.TimeStampToken", Verif.Rfc3161.TimeStampToken, TimeStampToken, .same, false⟩,
   ⟨"rfc3161.TimeStampResp", Verif.Rfc3161.TimeStampResp, TimeStampResp, .same, false⟩]

/-- Classes of rfc3161.py the transcription of the standard has no type for. -/
def beyond : List String :=
  []

/-- Constants of rfc3161.py and the values the standard gives them. -/
def constants : List Constant :=
  [⟨"rfc3161.id_ct_TSTInfo", Verif.Rfc3161.id_ct_TSTInfo, OBJECT_IDENTIFIER, .oid [1, 2, 840, 113549, 1, 9, 16, 1, 4], true⟩]

/-- Constants of rfc3161.py the transcription of the standard has no value for. -/
def others : List String :=
  []

def standard : Standard := ⟨Verif.Rfc3161.asModule, entries, beyond, constants, others⟩

end Rfc3161
end Std
end Verif
