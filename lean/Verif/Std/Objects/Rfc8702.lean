import Verif.Asn1.Objects
import Verif.Std.Rfc8702

/-! The objects of rfc8702 (generated by tools/objgen.py from tools/std/objects.txt). -/

set_option maxRecDepth 100000

namespace Verif
namespace Std
namespace Rfc8702

open Asn1 Spec.X680

def objects : List Object :=
  [⟨.ALGORITHM, .oid [2, 16, 840, 1, 101, 3, 4, 2, 19], KMACwithSHAKE128_params, (some .same)⟩,
   ⟨.ALGORITHM, .oid [2, 16, 840, 1, 101, 3, 4, 2, 20], KMACwithSHAKE256_params, (some .same)⟩]

def unlisted : List (ObjClass × Val) :=
  []

def registered : Objects := ⟨Verif.Rfc8702.asModule, objects, unlisted⟩

end Rfc8702
end Std
end Verif
