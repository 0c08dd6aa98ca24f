import Verif.Asn1.Objects
import Verif.Gen.Rfc5636

/-! The objects of rfc5636 (generated by tools/objgen.py from tools/std/objects.txt). -/

set_option maxRecDepth 100000

namespace Verif
namespace Std
namespace Rfc5636

open Asn1 Spec.X680

def objects : List Object :=
  []

def unlisted : List (ObjClass × Val) :=
  [(.CONTENT_TYPE, .oid [1, 2, 410, 200004, 10, 1, 1, 1]),
   (.CONTENT_TYPE, .oid [1, 2, 410, 200004, 10, 1, 1, 2]),
   (.CONTENT_TYPE, .oid [1, 2, 410, 200004, 10, 1, 1, 3])]

def registered : Objects := ⟨Verif.Rfc5636.asModule, objects, unlisted⟩

end Rfc5636
end Std
end Verif
