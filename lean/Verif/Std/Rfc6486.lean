import Verif.Spec.Grade
import Verif.Gen.Rfc6486

/-! The ASN.1 of tools/std/rfc6486.asn1 (generated by tools/stdgen.py). -/

namespace Verif
namespace Std
namespace Rfc6486

open Asn1 Spec.X680

/-- `FileAndHash ::=` -/
def FileAndHash : Ty :=
  SEQUENCE [
    mandatory "file" IA5String,
    mandatory "hash" BIT_STRING]

/-- `Manifest ::=` -/
def Manifest : Ty :=
  SEQUENCE [
    default "version" (explicit .context 0 INTEGER) (.int 0),
    mandatory "manifestNumber" (constrained (RANGE_MAX 0) INTEGER),
    mandatory "thisUpdate" GeneralizedTime,
    mandatory "nextUpdate" GeneralizedTime,
    mandatory "fileHashAlg" OBJECT_IDENTIFIER,
    mandatory "fileList" (constrained (SIZE_MAX 0) (SEQUENCE_OF FileAndHash))]

/-- Classes of rfc6486.py and the types of the standard they implement. -/
def entries : List Entry :=
  [⟨"rfc6486.FileAndHash", Verif.Rfc6486.FileAndHash, FileAndHash, .same, false⟩,
   ⟨"rfc6486.Manifest", Verif.Rfc6486.Manifest, Manifest, .same, false⟩]

/-- Classes of rfc6486.py the transcription of the standard has no type for. -/
def beyond : List String :=
  []

/-- Constants of rfc6486.py and the values the standard gives them. -/
def constants : List Constant :=
  [⟨"rfc6486.id_smime", Verif.Rfc6486.id_smime, OBJECT_IDENTIFIER, .oid [1, 2, 840, 113549, 1, 9, 16], true⟩,
   ⟨"rfc6486.id_ct", Verif.Rfc6486.id_ct, OBJECT_IDENTIFIER, .oid [1, 2, 840, 113549, 1, 9, 16, 1], true⟩,
   ⟨"rfc6486.id_ct_rpkiManifest", Verif.Rfc6486.id_ct_rpkiManifest, OBJECT_IDENTIFIER, .oid [1, 2, 840, 113549, 1, 9, 16, 1, 26], true⟩]

/-- Constants of rfc6486.py the transcription of the standard has no value for. -/
def others : List String :=
  []

def standard : Standard := ⟨Verif.Rfc6486.asModule, entries, beyond, constants, others⟩

end Rfc6486
end Std
end Verif
