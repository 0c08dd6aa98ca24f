import Verif.Spec.Grade
import Verif.Gen.Rfc2986
import Verif.Std.Rfc5280

/-! The ASN.1 of tools/std/rfc2986.asn1 (generated by tools/stdgen.py). -/

namespace Verif
namespace Std
namespace Rfc2986

open Asn1 Spec.X680

/-- `Attributes ::=` -/
def Attributes : Ty :=
  SET_OF Std.Rfc5280.Attribute

/-- `CertificationRequestInfo ::=` -/
def CertificationRequestInfo : Ty :=
  SEQUENCE [
    mandatory "version" (named [("v1", 0)] INTEGER),
    mandatory "subject" Std.Rfc5280.Name,
    mandatory "subjectPKInfo" Std.Rfc5280.SubjectPublicKeyInfo,
    mandatory "attributes" (implicit .context 0 Attributes)]

/-- `CertificationRequest ::=` -/
def CertificationRequest : Ty :=
  SEQUENCE [
    mandatory "certificationRequestInfo" CertificationRequestInfo,
    mandatory "signatureAlgorithm" Std.Rfc5280.AlgorithmIdentifier,
    mandatory "signature" BIT_STRING]

/-- Classes of rfc2986.py and the types of the standard they implement. -/
def entries : List Entry :=
  [⟨"rfc2986.AttributeType", Verif.Rfc2986.AttributeType, Std.Rfc5280.AttributeType, .same, false⟩,
   ⟨"rfc2986.AttributeValue", Verif.Rfc2986.AttributeValue, Std.Rfc5280.AttributeValue, .same, false⟩,
   ⟨"rfc2986.AttributeTypeAndValue", Verif.Rfc2986.AttributeTypeAndValue, Std.Rfc5280.AttributeTypeAndValue, .same, false⟩,
   ⟨"rfc2986.Attribute", Verif.Rfc2986.Attribute, Std.Rfc5280.Attribute, .same, false⟩,
   ⟨"rfc2986.RelativeDistinguishedName", Verif.Rfc2986.RelativeDistinguishedName, Std.Rfc5280.RelativeDistinguishedName, .same, false⟩,
   ⟨"rfc2986.RDNSequence", Verif.Rfc2986.RDNSequence, Std.Rfc5280.RDNSequence, .same, false⟩,
   ⟨"rfc2986.Name", Verif.Rfc2986.Name, Std.Rfc5280.Name, .same, false⟩,
   ⟨"rfc2986.AlgorithmIdentifier", Verif.Rfc2986.AlgorithmIdentifier, Std.Rfc5280.AlgorithmIdentifier, .same, false⟩,
   ⟨"rfc2986.SubjectPublicKeyInfo", Verif.Rfc2986.SubjectPublicKeyInfo, Std.Rfc5280.SubjectPublicKeyInfo, .same, false⟩,
   ⟨"rfc2986.Attributes", Verif.Rfc2986.Attributes, Attributes, .same, false⟩,
   ⟨"rfc2986.CertificationRequestInfo", Verif.Rfc2986.CertificationRequestInfo, CertificationRequestInfo, .same, true⟩,
   ⟨"rfc2986.CertificationRequest", Verif.Rfc2986.CertificationRequest, CertificationRequest, .same, true⟩]

/-- Classes of rfc2986.py the transcription of the standard has no type for. -/
def beyond : List String :=
  []

/-- Constants of rfc2986.py and the values the standard gives them. -/
def constants : List Constant :=
  []

/-- Constants of rfc2986.py the transcription of the standard has no value for. -/
def others : List String :=
  []

def standard : Standard := ⟨Verif.Rfc2986.asModule, entries, beyond, constants, others⟩

end Rfc2986
end Std
end Verif
