import Verif.Asn1.Objects
import Verif.Std.Rfc3657

/-! The objects of rfc3657 (generated by tools/objgen.py from tools/std/objects.txt). -/

set_option maxRecDepth 100000

namespace Verif
namespace Std
namespace Rfc3657

open Asn1 Spec.X680

def objects : List Object :=
  [⟨.ALGORITHM, .oid [1, 2, 392, 200011, 61, 1, 1, 1, 2], Camellia_IV, (some .same)⟩,
   ⟨.ALGORITHM, .oid [1, 2, 392, 200011, 61, 1, 1, 1, 3], Camellia_IV, (some .same)⟩,
   ⟨.ALGORITHM, .oid [1, 2, 392, 200011, 61, 1, 1, 1, 4], Camellia_IV, (some .same)⟩,
   ⟨.SMIME_CAPS, .oid [1, 2, 392, 200011, 61, 1, 1, 1, 2], CamelliaSMimeCapability, (some .same)⟩,
   ⟨.SMIME_CAPS, .oid [1, 2, 392, 200011, 61, 1, 1, 1, 3], CamelliaSMimeCapability, (some .same)⟩,
   ⟨.SMIME_CAPS, .oid [1, 2, 392, 200011, 61, 1, 1, 1, 4], CamelliaSMimeCapability, (some .same)⟩,
   ⟨.SMIME_CAPS, .oid [1, 2, 392, 200011, 61, 1, 1, 3, 2], CamelliaSMimeCapability, (some .same)⟩,
   ⟨.SMIME_CAPS, .oid [1, 2, 392, 200011, 61, 1, 1, 3, 3], CamelliaSMimeCapability, (some .same)⟩,
   ⟨.SMIME_CAPS, .oid [1, 2, 392, 200011, 61, 1, 1, 3, 4], CamelliaSMimeCapability, (some .same)⟩]

def unlisted : List (ObjClass × Val) :=
  []

def registered : Objects := ⟨Verif.Rfc3657.asModule, objects, unlisted⟩

end Rfc3657
end Std
end Verif
