import Verif.Asn1.Objects
import Verif.Std.Rfc5084

/-! The objects of rfc5084 (generated by tools/objgen.py from tools/std/objects.txt). -/

set_option maxRecDepth 100000

namespace Verif
namespace Std
namespace Rfc5084

open Asn1 Spec.X680

def objects : List Object :=
  [⟨.ALGORITHM, .oid [2, 16, 840, 1, 101, 3, 4, 1, 7], CCMParameters, (some .same)⟩,
   ⟨.ALGORITHM, .oid [2, 16, 840, 1, 101, 3, 4, 1, 6], GCMParameters, (some .same)⟩,
   ⟨.ALGORITHM, .oid [2, 16, 840, 1, 101, 3, 4, 1, 27], CCMParameters, (some .same)⟩,
   ⟨.ALGORITHM, .oid [2, 16, 840, 1, 101, 3, 4, 1, 26], GCMParameters, (some .same)⟩,
   ⟨.ALGORITHM, .oid [2, 16, 840, 1, 101, 3, 4, 1, 47], CCMParameters, (some .same)⟩,
   ⟨.ALGORITHM, .oid [2, 16, 840, 1, 101, 3, 4, 1, 46], GCMParameters, (some .same)⟩]

def unlisted : List (ObjClass × Val) :=
  []

def registered : Objects := ⟨Verif.Rfc5084.asModule, objects, unlisted⟩

end Rfc5084
end Std
end Verif
