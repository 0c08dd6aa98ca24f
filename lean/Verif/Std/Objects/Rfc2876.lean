import Verif.Asn1.Objects
import Verif.Std.Rfc2876
import Verif.Std.Rfc5280

/-! The objects of rfc2876 (generated by tools/objgen.py from tools/std/objects.txt). -/

set_option maxRecDepth 100000

namespace Verif
namespace Std
namespace Rfc2876

open Asn1 Spec.X680

def objects : List Object :=
  [⟨.ALGORITHM, .oid [2, 16, 840, 1, 101, 2, 1, 1, 4], Skipjack_Parm, (some .same)⟩,
   ⟨.ALGORITHM, .oid [2, 16, 840, 1, 101, 2, 1, 1, 24], Std.Rfc5280.AlgorithmIdentifier, (some .same)⟩,
   ⟨.SMIME_CAPS, .oid [2, 16, 840, 1, 101, 2, 1, 1, 24], Std.Rfc5280.AlgorithmIdentifier, (some .same)⟩]

def unlisted : List (ObjClass × Val) :=
  []

def registered : Objects := ⟨Verif.Rfc2876.asModule, objects, unlisted⟩

end Rfc2876
end Std
end Verif
