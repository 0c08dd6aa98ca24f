import Verif.Spec.Grade
import Verif.Gen.Rfc2314
import Verif.Std.Rfc2459

/-! The ASN.1 of tools/std/rfc2314.asn1 (generated by tools/stdgen.py). -/

namespace Verif
namespace Std
namespace Rfc2314

open Asn1 Spec.X680

/-- `Version ::=` -/
def Version : Ty :=
  INTEGER

/-- `Attributes ::=` -/
def Attributes : Ty :=
  SET_OF Std.Rfc2459.Attribute

/-- `CertificationRequestInfo ::=` -/
def CertificationRequestInfo : Ty :=
  SEQUENCE [
    mandatory "version" Version,
    mandatory "subject" Std.Rfc2459.Name,
    mandatory "subjectPublicKeyInfo" Std.Rfc2459.SubjectPublicKeyInfo,
    mandatory "attributes" (implicit .context 0 Attributes)]

/-- `SignatureAlgorithmIdentifier ::=` -/
def SignatureAlgorithmIdentifier : Ty :=
  Std.Rfc2459.AlgorithmIdentifier

/-- `Signature ::=` -/
def Signature : Ty :=
  BIT_STRING

/-- `CertificationRequest ::=` -/
def CertificationRequest : Ty :=
  SEQUENCE [
    mandatory "certificationRequestInfo" CertificationRequestInfo,
    mandatory "signatureAlgorithm" SignatureAlgorithmIdentifier,
    mandatory "signature" Signature]

/-- Classes of rfc2314.py and the types of the standard they implement. -/
def entries : List Entry :=
  [⟨"rfc2314.Version", Verif.Rfc2314.Version, Version, .same, false⟩,
   ⟨"rfc2314.Attributes", Verif.Rfc2314.Attributes, Attributes, .same, true⟩,
   ⟨"rfc2314.CertificationRequestInfo", Verif.Rfc2314.CertificationRequestInfo, CertificationRequestInfo, .relaxed, true⟩,
   ⟨"rfc2314.Signature", Verif.Rfc2314.Signature, Signature, .same, false⟩,
   ⟨"rfc2314.SignatureAlgorithmIdentifier", Verif.Rfc2314.SignatureAlgorithmIdentifier, SignatureAlgorithmIdentifier, .same, false⟩,
   ⟨"rfc2314.CertificationRequest", Verif.Rfc2314.CertificationRequest, CertificationRequest, .relaxed, true⟩]

/-- Classes of rfc2314.py the transcription of the standard has no type for. -/
def beyond : List String :=
  []

/-- Constants of rfc2314.py and the values the standard gives them. -/
def constants : List Constant :=
  []

/-- Constants of rfc2314.py the transcription of the standard has no value for. -/
def others : List String :=
  []

def standard : Standard := ⟨Verif.Rfc2314.asModule, entries, beyond, constants, others⟩

end Rfc2314
end Std
end Verif
