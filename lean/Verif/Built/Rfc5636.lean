import Verif.Spec.Built
import Verif.Gen.Rfc5636
import Verif.Std.Rfc5652

/-! What rfc5636.py implements, where that is not the standard (generated by tools/builtgen.py). -/

namespace Verif
namespace Built
namespace Rfc5636

open Asn1 Verif.Std Spec.X680 Spec.Built

/-- `UserKey ::=`, changed or supplied -/
def UserKey : Ty :=
  OCTET_STRING

/-- `Timeout ::=`, changed or supplied -/
def Timeout : Ty :=
  GeneralizedTime

/-- `BlinedCertificateHash ::=`, changed or supplied -/
def BlinedCertificateHash : Ty :=
  OCTET_STRING

/-- `PartiallySignedCertificateHash ::=`, changed or supplied -/
def PartiallySignedCertificateHash : Ty :=
  OCTET_STRING

/-- `Token ::=`, changed or supplied -/
def Token : Ty :=
  Std.Rfc5652.ContentInfo

/-- `TokenandBlindHash ::=`, changed or supplied -/
def TokenandBlindHash : Ty :=
  Std.Rfc5652.ContentInfo

/-- `TokenandPartiallySignedCertificateHash ::=`, changed or supplied -/
def TokenandPartiallySignedCertificateHash : Ty :=
  Std.Rfc5652.ContentInfo

/-- `TACToken ::=`, changed or supplied -/
def TACToken : Ty :=
  SEQUENCE [
    mandatory "userKey" Built.Rfc5636.UserKey,
    mandatory "timeout" Built.Rfc5636.Timeout]

/-- `TACTokenandBlindHash ::=`, changed or supplied -/
def TACTokenandBlindHash : Ty :=
  SEQUENCE [
    mandatory "token" Built.Rfc5636.Token,
    mandatory "blinded" Built.Rfc5636.BlinedCertificateHash]

/-- `TACTokenandPartiallySignedCertificateHash ::=`, changed or supplied -/
def TACTokenandPartiallySignedCertificateHash : Ty :=
  SEQUENCE [
    mandatory "token" Built.Rfc5636.Token,
    mandatory "partially" Built.Rfc5636.PartiallySignedCertificateHash]

def description : Description :=
  ⟨Verif.Rfc5636.asModule,
   [⟨"rfc5636.ContentInfo", Verif.Rfc5636.ContentInfo, Std.Rfc5652.ContentInfo⟩,
    ⟨"rfc5636.EncapsulatedContentInfo", Verif.Rfc5636.EncapsulatedContentInfo, Std.Rfc5652.EncapsulatedContentInfo⟩,
    ⟨"rfc5636.UserKey", Verif.Rfc5636.UserKey, Built.Rfc5636.UserKey⟩,
    ⟨"rfc5636.Timeout", Verif.Rfc5636.Timeout, Built.Rfc5636.Timeout⟩,
    ⟨"rfc5636.BlinedCertificateHash", Verif.Rfc5636.BlinedCertificateHash, Built.Rfc5636.BlinedCertificateHash⟩,
    ⟨"rfc5636.PartiallySignedCertificateHash", Verif.Rfc5636.PartiallySignedCertificateHash, Built.Rfc5636.PartiallySignedCertificateHash⟩,
    ⟨"rfc5636.Token", Verif.Rfc5636.Token, Built.Rfc5636.Token⟩,
    ⟨"rfc5636.TokenandBlindHash", Verif.Rfc5636.TokenandBlindHash, Built.Rfc5636.TokenandBlindHash⟩,
    ⟨"rfc5636.TokenandPartiallySignedCertificateHash", Verif.Rfc5636.TokenandPartiallySignedCertificateHash, Built.Rfc5636.TokenandPartiallySignedCertificateHash⟩,
    ⟨"rfc5636.TACToken", Verif.Rfc5636.TACToken, Built.Rfc5636.TACToken⟩,
    ⟨"rfc5636.TACTokenandBlindHash", Verif.Rfc5636.TACTokenandBlindHash, Built.Rfc5636.TACTokenandBlindHash⟩,
    ⟨"rfc5636.TACTokenandPartiallySignedCertificateHash", Verif.Rfc5636.TACTokenandPartiallySignedCertificateHash, Built.Rfc5636.TACTokenandPartiallySignedCertificateHash⟩]⟩

end Rfc5636
end Built
end Verif
