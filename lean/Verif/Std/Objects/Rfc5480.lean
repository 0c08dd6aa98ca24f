import Verif.Asn1.Objects
import Verif.Std.Rfc5480
import Verif.Std.Rfc3279

/-! The objects of rfc5480 (generated by tools/objgen.py from tools/std/objects.txt). -/

set_option maxRecDepth 100000

namespace Verif
namespace Std
namespace Rfc5480

open Asn1 Spec.X680

def objects : List Object :=
  [⟨.ALGORITHM, .oid [1, 2, 840, 113549, 1, 1, 1], NULL, (some .same)⟩,
   ⟨.ALGORITHM, .oid [1, 2, 840, 113549, 1, 1, 2], NULL, (some .same)⟩,
   ⟨.ALGORITHM, .oid [1, 2, 840, 113549, 1, 1, 4], NULL, (some .same)⟩,
   ⟨.ALGORITHM, .oid [1, 2, 840, 113549, 1, 1, 5], NULL, (some .same)⟩,
   ⟨.ALGORITHM, .oid [1, 2, 840, 10040, 4, 1], Std.Rfc3279.Dss_Parms, (some .same)⟩,
   ⟨.ALGORITHM, .oid [1, 2, 840, 10046, 2, 1], DomainParameters, (some .same)⟩,
   ⟨.ALGORITHM, .oid [2, 16, 840, 1, 101, 2, 1, 1, 22], KEA_Parms_Id, (some .same)⟩,
   ⟨.ALGORITHM, .oid [1, 2, 840, 10045, 2, 1], ECParameters, (some .same)⟩,
   ⟨.ALGORITHM, .oid [1, 3, 132, 1, 12], ECParameters, (some .same)⟩,
   ⟨.ALGORITHM, .oid [1, 3, 132, 1, 13], ECParameters, (some .same)⟩]

def unlisted : List (ObjClass × Val) :=
  []

def registered : Objects := ⟨Verif.Rfc5480.asModule, objects, unlisted⟩

end Rfc5480
end Std
end Verif
