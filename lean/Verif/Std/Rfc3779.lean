import Verif.Spec.Grade
import Verif.Gen.Rfc3779
import Verif.Std.Rfc3280

/-! The ASN.1 of tools/std/rfc3779.asn1 (generated by tools/stdgen.py). -/

namespace Verif
namespace Std
namespace Rfc3779

open Asn1 Spec.X680

/-- `IPAddress ::=` -/
def IPAddress : Ty :=
  BIT_STRING

/-- `IPAddressRange ::=` -/
def IPAddressRange : Ty :=
  SEQUENCE [
    mandatory "min" IPAddress,
    mandatory "max" IPAddress]

/-- `IPAddressOrRange ::=` -/
def IPAddressOrRange : Ty :=
  CHOICE [
    mandatory "addressPrefix" IPAddress,
    mandatory "addressRange" IPAddressRange]

/-- `IPAddressChoice ::=` -/
def IPAddressChoice : Ty :=
  CHOICE [
    mandatory "inherit" NULL,
    mandatory "addressesOrRanges" (SEQUENCE_OF IPAddressOrRange)]

/-- `IPAddressFamily ::=` -/
def IPAddressFamily : Ty :=
  SEQUENCE [
    mandatory "addressFamily" (constrained (SIZE 2 3) OCTET_STRING),
    mandatory "ipAddressChoice" IPAddressChoice]

/-- `IPAddrBlocks ::=` -/
def IPAddrBlocks : Ty :=
  SEQUENCE_OF IPAddressFamily

/-- `ASId ::=` -/
def ASId : Ty :=
  INTEGER

/-- `ASRange ::=` -/
def ASRange : Ty :=
  SEQUENCE [
    mandatory "min" ASId,
    mandatory "max" ASId]

/-- `ASIdOrRange ::=` -/
def ASIdOrRange : Ty :=
  CHOICE [
    mandatory "id" ASId,
    mandatory "range" ASRange]

/-- `ASIdentifierChoice ::=` -/
def ASIdentifierChoice : Ty :=
  CHOICE [
    mandatory "inherit" NULL,
    mandatory "asIdsOrRanges" (SEQUENCE_OF ASIdOrRange)]

/-- `ASIdentifiers ::=` -/
def ASIdentifiers : Ty :=
  SEQUENCE [
    optional "asnum" (explicit .context 0 ASIdentifierChoice),
    optional "rdi" (explicit .context 1 ASIdentifierChoice)]

/-- Classes of rfc3779.py and the types of the standard they implement. -/
def entries : List Entry :=
  [⟨"rfc3779.IPAddress", Verif.Rfc3779.IPAddress, IPAddress, .same, false⟩,
   ⟨"rfc3779.IPAddressRange", Verif.Rfc3779.IPAddressRange, IPAddressRange, .same, false⟩,
   ⟨"rfc3779.IPAddressOrRange", Verif.Rfc3779.IPAddressOrRange, IPAddressOrRange, .same, false⟩,
   ⟨"rfc3779.IPAddressChoice", Verif.Rfc3779.IPAddressChoice, IPAddressChoice, .same, false⟩,
   ⟨"rfc3779.IPAddressFamily", Verif.Rfc3779.IPAddressFamily, IPAddressFamily, .same, false⟩,
   ⟨"rfc3779.IPAddrBlocks", Verif.Rfc3779.IPAddrBlocks, IPAddrBlocks, .same, false⟩,
   ⟨"rfc3779.ASId", Verif.Rfc3779.ASId, ASId, .same, false⟩,
   ⟨"rfc3779.ASRange", Verif.Rfc3779.ASRange, ASRange, .same, false⟩,
   ⟨"rfc3779.ASIdOrRange", Verif.Rfc3779.ASIdOrRange, ASIdOrRange, .same, false⟩,
   ⟨"rfc3779.ASIdentifierChoice", Verif.Rfc3779.ASIdentifierChoice, ASIdentifierChoice, .same, false⟩,
   ⟨"rfc3779.ASIdentifiers", Verif.Rfc3779.ASIdentifiers, ASIdentifiers, .same, false⟩]

/-- Classes of rfc3779.py the transcription of the standard has no type for. -/
def beyond : List String :=
  []

/-- Constants of rfc3779.py and the values the standard gives them. -/
def constants : List Constant :=
  [⟨"rfc3779.id_pe_ipAddrBlocks", Verif.Rfc3779.id_pe_ipAddrBlocks, OBJECT_IDENTIFIER, .oid [1, 3, 6, 1, 5, 5, 7, 1, 7], true⟩,
   ⟨"rfc3779.id_pe_autonomousSysIds", Verif.Rfc3779.id_pe_autonomousSysIds, OBJECT_IDENTIFIER, .oid [1, 3, 6, 1, 5, 5, 7, 1, 8], true⟩]

/-- Constants of rfc3779.py the transcription of the standard has no value for. -/
def others : List String :=
  []

def standard : Standard := ⟨Verif.Rfc3779.asModule, entries, beyond, constants, others⟩

end Rfc3779
end Std
end Verif
