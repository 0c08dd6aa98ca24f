import Verif.Asn1.Objects
import Verif.Std.Rfc5083

/-! The objects of rfc5083 (generated by tools/objgen.py from tools/std/objects.txt). -/

set_option maxRecDepth 100000

namespace Verif
namespace Std
namespace Rfc5083

open Asn1 Spec.X680

def objects : List Object :=
  [⟨.CONTENT_TYPE, .oid [1, 2, 840, 113549, 1, 9, 16, 1, 23], AuthEnvelopedData, (some .same)⟩]

def unlisted : List (ObjClass × Val) :=
  []

def registered : Objects := ⟨Verif.Rfc5083.asModule, objects, unlisted⟩

end Rfc5083
end Std
end Verif
