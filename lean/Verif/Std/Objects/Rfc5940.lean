import Verif.Asn1.Objects
import Verif.Std.Rfc5940

/-! The objects of rfc5940 (generated by tools/objgen.py from tools/std/objects.txt). -/

set_option maxRecDepth 100000

namespace Verif
namespace Std
namespace Rfc5940

open Asn1 Spec.X680

def objects : List Object :=
  [⟨.OTHER_REVOK_INFO, .oid [1, 3, 6, 1, 5, 5, 7, 16, 2], Std.Rfc6960.OCSPResponse, (some .same)⟩,
   ⟨.OTHER_REVOK_INFO, .oid [1, 3, 6, 1, 5, 5, 7, 16, 4], SCVPReqRes, (some .same)⟩]

def unlisted : List (ObjClass × Val) :=
  []

def registered : Objects := ⟨Verif.Rfc5940.asModule, objects, unlisted⟩

end Rfc5940
end Std
end Verif
