import Verif.Asn1.Objects
import Verif.Std.Rfc6486

/-! The objects of rfc6486 (generated by tools/objgen.py from tools/std/objects.txt). -/

set_option maxRecDepth 100000

namespace Verif
namespace Std
namespace Rfc6486

open Asn1 Spec.X680

def objects : List Object :=
  [⟨.CONTENT_TYPE, .oid [1, 2, 840, 113549, 1, 9, 16, 1, 26], Manifest, (some .same)⟩]

def unlisted : List (ObjClass × Val) :=
  []

def registered : Objects := ⟨Verif.Rfc6486.asModule, objects, unlisted⟩

end Rfc6486
end Std
end Verif
