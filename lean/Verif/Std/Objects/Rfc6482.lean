import Verif.Asn1.Objects
import Verif.Std.Rfc6482

/-! The objects of rfc6482 (generated by tools/objgen.py from tools/std/objects.txt). -/

set_option maxRecDepth 100000

namespace Verif
namespace Std
namespace Rfc6482

open Asn1 Spec.X680

def objects : List Object :=
  [⟨.CONTENT_TYPE, .oid [1, 2, 840, 113549, 1, 9, 16, 1, 24], RouteOriginAttestation, (some .same)⟩]

def unlisted : List (ObjClass × Val) :=
  []

def registered : Objects := ⟨Verif.Rfc6482.asModule, objects, unlisted⟩

end Rfc6482
end Std
end Verif
