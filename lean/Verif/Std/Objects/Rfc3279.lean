import Verif.Asn1.Objects
import Verif.Std.Rfc3279

/-! The objects of rfc3279 (generated by tools/objgen.py from tools/std/objects.txt). -/

set_option maxRecDepth 100000

namespace Verif
namespace Std
namespace Rfc3279

open Asn1 Spec.X680

def objects : List Object :=
  [⟨.ALGORITHM, .oid [1, 2, 840, 113549, 2, 2], NULL, (some .same)⟩,
   ⟨.ALGORITHM, .oid [1, 2, 840, 113549, 2, 5], NULL, (some .same)⟩,
   ⟨.ALGORITHM, .oid [1, 3, 14, 3, 2, 26], NULL, (some .same)⟩,
   ⟨.ALGORITHM, .oid [1, 2, 840, 10040, 4, 1], Dss_Parms, (some .same)⟩,
   ⟨.ALGORITHM, .oid [1, 2, 840, 113549, 1, 1, 1], NULL, (some .same)⟩,
   ⟨.ALGORITHM, .oid [1, 2, 840, 113549, 1, 1, 2], NULL, (some .same)⟩,
   ⟨.ALGORITHM, .oid [1, 2, 840, 113549, 1, 1, 4], NULL, (some .same)⟩,
   ⟨.ALGORITHM, .oid [1, 2, 840, 113549, 1, 1, 5], NULL, (some .same)⟩,
   ⟨.ALGORITHM, .oid [1, 2, 840, 10046, 2, 1], DomainParameters, (some .same)⟩,
   ⟨.ALGORITHM, .oid [2, 16, 840, 1, 101, 2, 1, 1, 22], KEA_Parms_Id, (some .same)⟩,
   ⟨.ALGORITHM, .oid [1, 2, 840, 10045, 2, 1], EcpkParameters, (some .same)⟩]

def unlisted : List (ObjClass × Val) :=
  []

def registered : Objects := ⟨Verif.Rfc3279.asModule, objects, unlisted⟩

end Rfc3279
end Std
end Verif
