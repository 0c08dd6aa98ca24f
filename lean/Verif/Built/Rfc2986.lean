import Verif.Spec.Built
import Verif.Std.Rfc2986
import Verif.Built.Rfc5280
import Verif.Std.Rfc5280

/-! What rfc2986.py implements, where that is not the standard (generated by tools/builtgen.py). -/

namespace Verif
namespace Built
namespace Rfc2986

open Asn1 Verif.Std Spec.X680 Spec.Built

/-- `CertificationRequestInfo ::=`, changed or supplied -/
def CertificationRequestInfo : Ty :=
  SEQUENCE [
    mandatory "version" INTEGER,
    mandatory "subject" Std.Rfc5280.Name,
    mandatory "subjectPKInfo" Std.Rfc5280.SubjectPublicKeyInfo,
    mandatory "attributes" (implicit .context 0 Std.Rfc2986.Attributes)]

/-- `CertificationRequest ::=` -/
def CertificationRequest : Ty :=
  SEQUENCE [
    mandatory "certificationRequestInfo" Built.Rfc2986.CertificationRequestInfo,
    mandatory "signatureAlgorithm" Std.Rfc5280.AlgorithmIdentifier,
    mandatory "signature" BIT_STRING]

def description : Description :=
  ⟨Verif.Rfc2986.asModule,
   [⟨"rfc2986.AttributeType", Verif.Rfc2986.AttributeType, Std.Rfc5280.AttributeType⟩,
    ⟨"rfc2986.AttributeValue", Verif.Rfc2986.AttributeValue, Std.Rfc5280.AttributeValue⟩,
    ⟨"rfc2986.AttributeTypeAndValue", Verif.Rfc2986.AttributeTypeAndValue, Std.Rfc5280.AttributeTypeAndValue⟩,
    ⟨"rfc2986.Attribute", Verif.Rfc2986.Attribute, Std.Rfc5280.Attribute⟩,
    ⟨"rfc2986.RelativeDistinguishedName", Verif.Rfc2986.RelativeDistinguishedName, Std.Rfc5280.RelativeDistinguishedName⟩,
    ⟨"rfc2986.RDNSequence", Verif.Rfc2986.RDNSequence, Std.Rfc5280.RDNSequence⟩,
    ⟨"rfc2986.Name", Verif.Rfc2986.Name, Std.Rfc5280.Name⟩,
    ⟨"rfc2986.AlgorithmIdentifier", Verif.Rfc2986.AlgorithmIdentifier, Std.Rfc5280.AlgorithmIdentifier⟩,
    ⟨"rfc2986.SubjectPublicKeyInfo", Verif.Rfc2986.SubjectPublicKeyInfo, Std.Rfc5280.SubjectPublicKeyInfo⟩,
    ⟨"rfc2986.Attributes", Verif.Rfc2986.Attributes, Std.Rfc2986.Attributes⟩,
    ⟨"rfc2986.CertificationRequestInfo", Verif.Rfc2986.CertificationRequestInfo, Built.Rfc2986.CertificationRequestInfo⟩,
    ⟨"rfc2986.CertificationRequest", Verif.Rfc2986.CertificationRequest, Built.Rfc2986.CertificationRequest⟩]⟩

end Rfc2986
end Built
end Verif
