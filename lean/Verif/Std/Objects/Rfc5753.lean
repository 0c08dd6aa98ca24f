import Verif.Asn1.Objects
import Verif.Std.Rfc5753

/-! The objects of rfc5753 (generated by tools/objgen.py from tools/std/objects.txt). -/

set_option maxRecDepth 100000

namespace Verif
namespace Std
namespace Rfc5753

open Asn1 Spec.X680

def objects : List Object :=
  [⟨.ALGORITHM, .oid [1, 3, 133, 16, 840, 63, 0, 2], KeyWrapAlgorithm, (some .same)⟩,
   ⟨.ALGORITHM, .oid [1, 3, 132, 1, 11, 0], KeyWrapAlgorithm, (some .same)⟩,
   ⟨.ALGORITHM, .oid [1, 3, 132, 1, 11, 1], KeyWrapAlgorithm, (some .same)⟩,
   ⟨.ALGORITHM, .oid [1, 3, 132, 1, 11, 2], KeyWrapAlgorithm, (some .same)⟩,
   ⟨.ALGORITHM, .oid [1, 3, 132, 1, 11, 3], KeyWrapAlgorithm, (some .same)⟩,
   ⟨.ALGORITHM, .oid [1, 3, 133, 16, 840, 63, 0, 3], KeyWrapAlgorithm, (some .same)⟩,
   ⟨.ALGORITHM, .oid [1, 3, 132, 1, 14, 0], KeyWrapAlgorithm, (some .same)⟩,
   ⟨.ALGORITHM, .oid [1, 3, 132, 1, 14, 1], KeyWrapAlgorithm, (some .same)⟩,
   ⟨.ALGORITHM, .oid [1, 3, 132, 1, 14, 2], KeyWrapAlgorithm, (some .same)⟩,
   ⟨.ALGORITHM, .oid [1, 3, 132, 1, 14, 3], KeyWrapAlgorithm, (some .same)⟩,
   ⟨.ALGORITHM, .oid [1, 3, 133, 16, 840, 63, 0, 16], KeyWrapAlgorithm, (some .same)⟩,
   ⟨.ALGORITHM, .oid [1, 3, 132, 1, 15, 0], KeyWrapAlgorithm, (some .same)⟩,
   ⟨.ALGORITHM, .oid [1, 3, 132, 1, 15, 1], KeyWrapAlgorithm, (some .same)⟩,
   ⟨.ALGORITHM, .oid [1, 3, 132, 1, 15, 2], KeyWrapAlgorithm, (some .same)⟩,
   ⟨.ALGORITHM, .oid [1, 3, 132, 1, 15, 3], KeyWrapAlgorithm, (some .same)⟩,
   ⟨.SMIME_CAPS, .oid [1, 3, 133, 16, 840, 63, 0, 2], KeyWrapAlgorithm, (some .same)⟩,
   ⟨.SMIME_CAPS, .oid [1, 3, 132, 1, 11, 0], KeyWrapAlgorithm, (some .same)⟩,
   ⟨.SMIME_CAPS, .oid [1, 3, 132, 1, 11, 1], KeyWrapAlgorithm, (some .same)⟩,
   ⟨.SMIME_CAPS, .oid [1, 3, 132, 1, 11, 2], KeyWrapAlgorithm, (some .same)⟩,
   ⟨.SMIME_CAPS, .oid [1, 3, 132, 1, 11, 3], KeyWrapAlgorithm, (some .same)⟩,
   ⟨.SMIME_CAPS, .oid [1, 3, 133, 16, 840, 63, 0, 3], KeyWrapAlgorithm, (some .same)⟩,
   ⟨.SMIME_CAPS, .oid [1, 3, 132, 1, 14, 0], KeyWrapAlgorithm, (some .same)⟩,
   ⟨.SMIME_CAPS, .oid [1, 3, 132, 1, 14, 1], KeyWrapAlgorithm, (some .same)⟩,
   ⟨.SMIME_CAPS, .oid [1, 3, 132, 1, 14, 2], KeyWrapAlgorithm, (some .same)⟩,
   ⟨.SMIME_CAPS, .oid [1, 3, 132, 1, 14, 3], KeyWrapAlgorithm, (some .same)⟩,
   ⟨.SMIME_CAPS, .oid [1, 3, 133, 16, 840, 63, 0, 16], KeyWrapAlgorithm, (some .same)⟩,
   ⟨.SMIME_CAPS, .oid [1, 3, 132, 1, 15, 0], KeyWrapAlgorithm, (some .same)⟩,
   ⟨.SMIME_CAPS, .oid [1, 3, 132, 1, 15, 1], KeyWrapAlgorithm, (some .same)⟩,
   ⟨.SMIME_CAPS, .oid [1, 3, 132, 1, 15, 2], KeyWrapAlgorithm, (some .same)⟩,
   ⟨.SMIME_CAPS, .oid [1, 3, 132, 1, 15, 3], KeyWrapAlgorithm, (some .same)⟩]

def unlisted : List (ObjClass × Val) :=
  []

def registered : Objects := ⟨Verif.Rfc5753.asModule, objects, unlisted⟩

end Rfc5753
end Std
end Verif
