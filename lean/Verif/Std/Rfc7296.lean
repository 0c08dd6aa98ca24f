import Verif.Spec.Grade
import Verif.Gen.Rfc7296
import Verif.Std.Rfc5280

/-! The ASN.1 of tools/std/rfc7296.asn1 (generated by tools/stdgen.py). -/

namespace Verif
namespace Std
namespace Rfc7296

open Asn1 Spec.X680

/-- `CertificateOrCRL ::=` -/
def CertificateOrCRL : Ty :=
  CHOICE [
    mandatory "cert" (explicit .context 0 Std.Rfc5280.Certificate),
    mandatory "crl" (explicit .context 1 Std.Rfc5280.CertificateList)]

/-- `CertificateBundle ::=` -/
def CertificateBundle : Ty :=
  SEQUENCE_OF CertificateOrCRL

/-- Classes of rfc7296.py and the types of the standard they implement. -/
def entries : List Entry :=
  [⟨"rfc7296.CertificateOrCRL", Verif.Rfc7296.CertificateOrCRL, CertificateOrCRL, .same, false⟩,
   ⟨"rfc7296.CertificateBundle", Verif.Rfc7296.CertificateBundle, CertificateBundle, .same, false⟩]

/-- Classes of rfc7296.py the transcription of the standard has no type for. -/
def beyond : List String :=
  []

/-- Constants of rfc7296.py and the values the standard gives them. -/
def constants : List Constant :=
  []

/-- Constants of rfc7296.py the transcription of the standard has no value for. -/
def others : List String :=
  []

def standard : Standard := ⟨Verif.Rfc7296.asModule, entries, beyond, constants, others⟩

end Rfc7296
end Std
end Verif
