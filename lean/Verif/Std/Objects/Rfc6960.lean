import Verif.Asn1.Objects
import Verif.Std.Rfc6960

/-! The objects of rfc6960 (generated by tools/objgen.py from tools/std/objects.txt). -/

set_option maxRecDepth 100000

namespace Verif
namespace Std
namespace Rfc6960

open Asn1 Spec.X680

def objects : List Object :=
  [⟨.RESPONSE, .oid [1, 3, 6, 1, 5, 5, 7, 48, 1, 1], BasicOCSPResponse, (some .same)⟩,
   ⟨.EXTENSION, .oid [1, 3, 6, 1, 5, 5, 7, 48, 1, 5], NULL, (some .same)⟩,
   ⟨.EXTENSION, .oid [1, 3, 6, 1, 5, 5, 7, 48, 1, 2], OCTET_STRING, (some .same)⟩,
   ⟨.EXTENSION, .oid [1, 3, 6, 1, 5, 5, 7, 48, 1, 4], AcceptableResponses, (some .same)⟩,
   ⟨.EXTENSION, .oid [1, 3, 6, 1, 5, 5, 7, 48, 1, 7], ServiceLocator, (some .same)⟩,
   ⟨.EXTENSION, .oid [1, 3, 6, 1, 5, 5, 7, 48, 1, 8], PreferredSignatureAlgorithms, (some .same)⟩,
   ⟨.EXTENSION, .oid [1, 3, 6, 1, 5, 5, 7, 48, 1, 3], CrlID, (some .same)⟩,
   ⟨.EXTENSION, .oid [1, 3, 6, 1, 5, 5, 7, 48, 1, 6], ArchiveCutoff, (some .same)⟩,
   ⟨.EXTENSION, .oid [1, 3, 6, 1, 5, 5, 7, 48, 1, 9], NULL, (some .same)⟩]

def unlisted : List (ObjClass × Val) :=
  []

def registered : Objects := ⟨Verif.Rfc6960.asModule, objects, unlisted⟩

end Rfc6960
end Std
end Verif
