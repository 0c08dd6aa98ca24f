import Verif.Spec.Grade
import Verif.Gen.Rfc6482

/-! The ASN.1 of tools/std/rfc6482.asn1 (generated by tools/stdgen.py). -/

namespace Verif
namespace Std
namespace Rfc6482

open Asn1 Spec.X680

/-- `ASID ::=` -/
def ASID : Ty :=
  INTEGER

/-- `IPAddress ::=` -/
def IPAddress : Ty :=
  BIT_STRING

/-- `ROAIPAddress ::=` -/
def ROAIPAddress : Ty :=
  SEQUENCE [
    mandatory "address" IPAddress,
    optional "maxLength" INTEGER]

/-- `ROAIPAddressFamily ::=` -/
def ROAIPAddressFamily : Ty :=
  SEQUENCE [
    mandatory "addressFamily" (constrained (SIZE 2 3) OCTET_STRING),
    mandatory "addresses" (constrained (SIZE_MAX 1) (SEQUENCE_OF ROAIPAddress))]

/-- `RouteOriginAttestation ::=` -/
def RouteOriginAttestation : Ty :=
  SEQUENCE [
    default "version" (explicit .context 0 INTEGER) (.int 0),
    mandatory "asID" ASID,
    mandatory "ipAddrBlocks" (constrained (SIZE_MAX 1) (SEQUENCE_OF ROAIPAddressFamily))]

/-- Classes of rfc6482.py and the types of the standard they implement. -/
def entries : List Entry :=
  [⟨"rfc6482.ASID", Verif.Rfc6482.ASID, ASID, .same, false⟩,
   ⟨"rfc6482.IPAddress", Verif.Rfc6482.IPAddress, IPAddress, .same, false⟩,
   ⟨"rfc6482.ROAIPAddress", Verif.Rfc6482.ROAIPAddress, ROAIPAddress, .same, false⟩,
   ⟨"rfc6482.ROAIPAddressFamily", Verif.Rfc6482.ROAIPAddressFamily, ROAIPAddressFamily, .same, false⟩,
   ⟨"rfc6482.RouteOriginAttestation", Verif.Rfc6482.RouteOriginAttestation, RouteOriginAttestation, .same, false⟩]

/-- Classes of rfc6482.py the transcription of the standard has no type for. -/
def beyond : List String :=
  []

/-- Constants of rfc6482.py and the values the standard gives them. -/
def constants : List Constant :=
  [⟨"rfc6482.id_ct_routeOriginAuthz", Verif.Rfc6482.id_ct_routeOriginAuthz, OBJECT_IDENTIFIER, .oid [1, 2, 840, 113549, 1, 9, 16, 1, 24], true⟩]

/-- Constants of rfc6482.py the transcription of the standard has no value for. -/
def others : List String :=
  []

def standard : Standard := ⟨Verif.Rfc6482.asModule, entries, beyond, constants, others⟩

end Rfc6482
end Std
end Verif
