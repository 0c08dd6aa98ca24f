import Verif.Spec.Grade
import Verif.Gen.Rfc5697
import Verif.Std.Rfc5280

/-! The ASN.1 of tools/std/rfc5697.asn1 (generated by tools/stdgen.py). -/

namespace Verif
namespace Std
namespace Rfc5697

open Asn1 Spec.X680

/-- `SCVPIssuerSerial ::=` -/
def SCVPIssuerSerial : Ty :=
  SEQUENCE [
    mandatory "issuer" Std.Rfc5280.GeneralNames,
    mandatory "serialNumber" Std.Rfc5280.CertificateSerialNumber]

/-- `SCVPCertID ::=` -/
def SCVPCertID : Ty :=
  SEQUENCE [
    mandatory "certHash" OCTET_STRING,
    mandatory "issuerSerial" SCVPIssuerSerial,
    default "hashAlgorithm" Std.Rfc5280.AlgorithmIdentifier (.record (.ofList [(.oid [1, 3, 14, 3, 2, 26]), .absent]))]

/-- `OtherCertificates ::=` -/
def OtherCertificates : Ty :=
  SEQUENCE_OF SCVPCertID

/-- Classes of rfc5697.py and the types of the standard they implement. -/
def entries : List Entry :=
  [⟨"rfc5697.AlgorithmIdentifier", Verif.Rfc5697.AlgorithmIdentifier, Std.Rfc5280.AlgorithmIdentifier, .same, false⟩,
   ⟨"rfc5697.CertificateSerialNumber", Verif.Rfc5697.CertificateSerialNumber, Std.Rfc5280.CertificateSerialNumber, .same, false⟩,
   ⟨"rfc5697.GeneralNames", Verif.Rfc5697.GeneralNames, Std.Rfc5280.GeneralNames, .same, false⟩,
   ⟨"rfc5697.SCVPIssuerSerial", Verif.Rfc5697.SCVPIssuerSerial, SCVPIssuerSerial, .same, false⟩,
   ⟨"rfc5697.SCVPCertID", Verif.Rfc5697.SCVPCertID, SCVPCertID, .same, false⟩,
   ⟨"rfc5697.OtherCertificates", Verif.Rfc5697.OtherCertificates, OtherCertificates, .same, false⟩]

/-- Classes of rfc5697.py the transcription of the standard has no type for. -/
def beyond : List String :=
  []

/-- Constants of rfc5697.py and the values the standard gives them. -/
def constants : List Constant :=
  [⟨"rfc5697.id_sha1", Verif.Rfc5697.id_sha1, OBJECT_IDENTIFIER, .oid [1, 3, 14, 3, 2, 26], true⟩,
   ⟨"rfc5697.id_pe_otherCerts", Verif.Rfc5697.id_pe_otherCerts, OBJECT_IDENTIFIER, .oid [1, 3, 6, 1, 5, 5, 7, 1, 19], true⟩]

/-- Constants of rfc5697.py the transcription of the standard has no value for. -/
def others : List String :=
  ["rfc5697.sha1_alg_id"]

def standard : Standard := ⟨Verif.Rfc5697.asModule, entries, beyond, constants, others⟩

end Rfc5697
end Std
end Verif
