import Verif.Spec.Built
import Verif.Std.Rfc2314
import Verif.Built.Rfc2459
import Verif.Std.Rfc2459

/-! What rfc2314.py implements, where that is not the standard (generated by tools/builtgen.py). -/

namespace Verif
namespace Built
namespace Rfc2314

open Asn1 Verif.Std Spec.X680 Spec.Built

/-- `Attributes ::=` -/
def Attributes : Ty :=
  SET_OF Built.Rfc2459.Attribute

/-- `CertificationRequestInfo ::=` -/
def CertificationRequestInfo : Ty :=
  SEQUENCE [
    mandatory "version" Std.Rfc2314.Version,
    mandatory "subject" Built.Rfc2459.Name,
    mandatory "subjectPublicKeyInfo" Std.Rfc2459.SubjectPublicKeyInfo,
    mandatory "attributes" (implicit .context 0 Built.Rfc2314.Attributes)]

/-- `CertificationRequest ::=` -/
def CertificationRequest : Ty :=
  SEQUENCE [
    mandatory "certificationRequestInfo" Built.Rfc2314.CertificationRequestInfo,
    mandatory "signatureAlgorithm" Std.Rfc2314.SignatureAlgorithmIdentifier,
    mandatory "signature" Std.Rfc2314.Signature]

def description : Description :=
  ⟨Verif.Rfc2314.asModule,
   [⟨"rfc2314.Version", Verif.Rfc2314.Version, Std.Rfc2314.Version⟩,
    ⟨"rfc2314.Attributes", Verif.Rfc2314.Attributes, Built.Rfc2314.Attributes⟩,
    ⟨"rfc2314.CertificationRequestInfo", Verif.Rfc2314.CertificationRequestInfo, Built.Rfc2314.CertificationRequestInfo⟩,
    ⟨"rfc2314.Signature", Verif.Rfc2314.Signature, Std.Rfc2314.Signature⟩,
    ⟨"rfc2314.SignatureAlgorithmIdentifier", Verif.Rfc2314.SignatureAlgorithmIdentifier, Std.Rfc2314.SignatureAlgorithmIdentifier⟩,
    ⟨"rfc2314.CertificationRequest", Verif.Rfc2314.CertificationRequest, Built.Rfc2314.CertificationRequest⟩]⟩

end Rfc2314
end Built
end Verif
