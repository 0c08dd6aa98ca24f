import Verif.Spec.Grade
import Verif.Gen.Rfc6210

/-! The ASN.1 of tools/std/rfc6210.asn1 (generated by tools/stdgen.py). -/

namespace Verif
namespace Std
namespace Rfc6210

open Asn1 Spec.X680

/-- `MD5-XOR-EXPERIMENT ::=` -/
def MD5_XOR_EXPERIMENT : Ty :=
  constrained (SIZE 64 64) OCTET_STRING

/-- Classes of rfc6210.py and the types of the standard they implement. -/
def entries : List Entry :=
  [⟨"rfc6210.MD5_XOR_EXPERIMENT", Verif.Rfc6210.MD5_XOR_EXPERIMENT, MD5_XOR_EXPERIMENT, .same, false⟩]

/-- Classes of rfc6210.py the transcription of the standard has no type for. -/
def beyond : List String :=
  []

/-- Constants of rfc6210.py and the values the standard gives them. -/
def constants : List Constant :=
  [⟨"rfc6210.id_alg_MD5_XOR_EXPERIMENT", Verif.Rfc6210.id_alg_MD5_XOR_EXPERIMENT, OBJECT_IDENTIFIER, .oid [1, 2, 840, 113549, 1, 9, 16, 3, 13], true⟩]

/-- Constants of rfc6210.py the transcription of the standard has no value for. -/
def others : List String :=
  ["rfc6210.mda_xor_md5_EXPERIMENT"]

def standard : Standard := ⟨Verif.Rfc6210.asModule, entries, beyond, constants, others⟩

end Rfc6210
end Std
end Verif
