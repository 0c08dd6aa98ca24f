import Verif.Spec.Grade
import Verif.Gen.Rfc8358

/-! The ASN.1 of tools/std/rfc8358.asn1 (generated by tools/stdgen.py). -/

namespace Verif
namespace Std
namespace Rfc8358

open Asn1 Spec.X680

/-- Classes of rfc8358.py and the types of the standard they implement. -/
def entries : List Entry :=
  []

/-- Classes of rfc8358.py the transcription of the standard has no type for. -/
def beyond : List String :=
  []

/-- Constants of rfc8358.py and the values the standard gives them. -/
def constants : List Constant :=
  [⟨"rfc8358.id_ct", Verif.Rfc8358.id_ct, OBJECT_IDENTIFIER, .oid [1, 2, 840, 113549, 1, 9, 16, 1], true⟩,
   ⟨"rfc8358.id_ct_asciiTextWithCRLF", Verif.Rfc8358.id_ct_asciiTextWithCRLF, OBJECT_IDENTIFIER, .oid [1, 2, 840, 113549, 1, 9, 16, 1, 27], true⟩,
   ⟨"rfc8358.id_ct_epub", Verif.Rfc8358.id_ct_epub, OBJECT_IDENTIFIER, .oid [1, 2, 840, 113549, 1, 9, 16, 1, 39], true⟩,
   ⟨"rfc8358.id_ct_htmlWithCRLF", Verif.Rfc8358.id_ct_htmlWithCRLF, OBJECT_IDENTIFIER, .oid [1, 2, 840, 113549, 1, 9, 16, 1, 38], true⟩,
   ⟨"rfc8358.id_ct_pdf", Verif.Rfc8358.id_ct_pdf, OBJECT_IDENTIFIER, .oid [1, 2, 840, 113549, 1, 9, 16, 1, 29], true⟩,
   ⟨"rfc8358.id_ct_postscript", Verif.Rfc8358.id_ct_postscript, OBJECT_IDENTIFIER, .oid [1, 2, 840, 113549, 1, 9, 16, 1, 30], true⟩,
   ⟨"rfc8358.id_ct_utf8TextWithCRLF", Verif.Rfc8358.id_ct_utf8TextWithCRLF, OBJECT_IDENTIFIER, .oid [1, 2, 840, 113549, 1, 9, 16, 1, 37], true⟩,
   ⟨"rfc8358.id_ct_xml", Verif.Rfc8358.id_ct_xml, OBJECT_IDENTIFIER, .oid [1, 2, 840, 113549, 1, 9, 16, 1, 28], true⟩]

/-- Constants of rfc8358.py the transcription of the standard has no value for. -/
def others : List String :=
  []

def standard : Standard := ⟨Verif.Rfc8358.asModule, entries, beyond, constants, others⟩

end Rfc8358
end Std
end Verif
