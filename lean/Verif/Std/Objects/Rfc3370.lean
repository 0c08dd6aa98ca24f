import Verif.Asn1.Objects
import Verif.Std.Rfc3370

/-! The objects of rfc3370 (generated by tools/objgen.py from tools/std/objects.txt). -/

set_option maxRecDepth 100000

namespace Verif
namespace Std
namespace Rfc3370

open Asn1 Spec.X680

def objects : List Object :=
  [⟨.ALGORITHM, .oid [1, 3, 6, 1, 5, 5, 8, 1, 2], NULL, (some .same)⟩,
   ⟨.ALGORITHM, .oid [1, 2, 840, 113549, 1, 9, 16, 3, 7], RC2wrapParameter, (some .same)⟩,
   ⟨.ALGORITHM, .oid [1, 2, 840, 113549, 1, 9, 16, 3, 5], KeyWrapAlgorithm, (some .same)⟩,
   ⟨.ALGORITHM, .oid [1, 2, 840, 113549, 1, 9, 16, 3, 10], KeyWrapAlgorithm, (some .same)⟩,
   ⟨.SMIME_CAPS, .oid [1, 2, 840, 113549, 1, 9, 16, 3, 7], RC2wrapParameter, (some .same)⟩,
   ⟨.SMIME_CAPS, .oid [1, 2, 840, 113549, 1, 9, 16, 3, 5], KeyWrapAlgorithm, (some .same)⟩,
   ⟨.SMIME_CAPS, .oid [1, 2, 840, 113549, 1, 9, 16, 3, 10], KeyWrapAlgorithm, (some .same)⟩,
   ⟨.ALGORITHM, .oid [1, 2, 840, 113549, 1, 9, 16, 3, 6], NULL, none⟩,
   ⟨.ALGORITHM, .oid [1, 2, 840, 113549, 3, 7], CBCParameter, none⟩,
   ⟨.ALGORITHM, .oid [1, 2, 840, 113549, 3, 2], RC2CBCParameter, none⟩,
   ⟨.ALGORITHM, .oid [1, 2, 840, 113549, 1, 5, 12], Std.Rfc8018.PBKDF2_params, none⟩]

def unlisted : List (ObjClass × Val) :=
  []

def registered : Objects := ⟨Verif.Rfc3370.asModule, objects, unlisted⟩

end Rfc3370
end Std
end Verif
