import Verif.Asn1.Objects
import Verif.Std.Rfc4985

/-! The objects of rfc4985 (generated by tools/objgen.py from tools/std/objects.txt). -/

set_option maxRecDepth 100000

namespace Verif
namespace Std
namespace Rfc4985

open Asn1 Spec.X680

def objects : List Object :=
  [⟨.OTHER_NAME, .oid [1, 3, 6, 1, 5, 5, 7, 8, 7], SRVName, (some .same)⟩]

def unlisted : List (ObjClass × Val) :=
  []

def registered : Objects := ⟨Verif.Rfc4985.asModule, objects, unlisted⟩

end Rfc4985
end Std
end Verif
