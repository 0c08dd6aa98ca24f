import Verif.Asn1.Objects
import Verif.Std.Rfc3274

/-! The objects of rfc3274 (generated by tools/objgen.py from tools/std/objects.txt). -/

set_option maxRecDepth 100000

namespace Verif
namespace Std
namespace Rfc3274

open Asn1 Spec.X680

def objects : List Object :=
  [⟨.CONTENT_TYPE, .oid [1, 2, 840, 113549, 1, 9, 16, 1, 9], CompressedData, (some .same)⟩]

def unlisted : List (ObjClass × Val) :=
  []

def registered : Objects := ⟨Verif.Rfc3274.asModule, objects, unlisted⟩

end Rfc3274
end Std
end Verif
