import Verif.Spec.Grade
import Verif.Gen.Rfc4683
import Verif.Std.Rfc5280

/-! The ASN.1 of tools/std/rfc4683.asn1 (generated by tools/stdgen.py). -/

namespace Verif
namespace Std
namespace Rfc4683

open Asn1 Spec.X680

/-- `SIM ::=` -/
def SIM : Ty :=
  SEQUENCE [
    mandatory "hashAlg" Std.Rfc5280.AlgorithmIdentifier,
    mandatory "authorityRandom" OCTET_STRING,
    mandatory "pEPSI" OCTET_STRING]

/-- `HashContent ::=` -/
def HashContent : Ty :=
  SEQUENCE [
    mandatory "userPassword" UTF8String,
    mandatory "authorityRandom" OCTET_STRING,
    mandatory "identifierType" OBJECT_IDENTIFIER,
    mandatory "identifier" UTF8String]

/-- `EncryptedPEPSI ::=` -/
def EncryptedPEPSI : Ty :=
  SEQUENCE [
    mandatory "identifierType" OBJECT_IDENTIFIER,
    mandatory "identifier" UTF8String,
    mandatory "sIM" SIM]

/-- Classes of rfc4683.py and the types of the standard they implement. -/
def entries : List Entry :=
  [⟨"rfc4683.HashContent", Verif.Rfc4683.HashContent, HashContent, .same, false⟩,
   ⟨"rfc4683.SIM", Verif.Rfc4683.SIM, SIM, .same, false⟩,
   ⟨"rfc4683.EncryptedPEPSI", Verif.Rfc4683.EncryptedPEPSI, EncryptedPEPSI, .same, false⟩]

/-- Classes of rfc4683.py the transcription of the standard has no type for. -/
def beyond : List String :=
  []

/-- Constants of rfc4683.py and the values the standard gives them. -/
def constants : List Constant :=
  [⟨"rfc4683.id_pkix", Verif.Rfc4683.id_pkix, OBJECT_IDENTIFIER, .oid [1, 3, 6, 1, 5, 5, 7], true⟩,
   ⟨"rfc4683.id_on", Verif.Rfc4683.id_on, OBJECT_IDENTIFIER, .oid [1, 3, 6, 1, 5, 5, 7, 8], true⟩,
   ⟨"rfc4683.id_on_SIM", Verif.Rfc4683.id_on_SIM, OBJECT_IDENTIFIER, .oid [1, 3, 6, 1, 5, 5, 7, 8, 6], true⟩,
   ⟨"rfc4683.id_pkip", Verif.Rfc4683.id_pkip, OBJECT_IDENTIFIER, .oid [1, 3, 6, 1, 5, 5, 7, 5], true⟩,
   ⟨"rfc4683.id_regEPEPSI", Verif.Rfc4683.id_regEPEPSI, OBJECT_IDENTIFIER, .oid [1, 3, 6, 1, 5, 5, 7, 5, 3], true⟩]

/-- Constants of rfc4683.py the transcription of the standard has no value for. -/
def others : List String :=
  []

def standard : Standard := ⟨Verif.Rfc4683.asModule, entries, beyond, constants, others⟩

end Rfc4683
end Std
end Verif
