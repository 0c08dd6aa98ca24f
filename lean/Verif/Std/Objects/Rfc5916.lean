import Verif.Asn1.Objects
import Verif.Std.Rfc5916

/-! The objects of rfc5916 (generated by tools/objgen.py from tools/std/objects.txt). -/

set_option maxRecDepth 100000

namespace Verif
namespace Std
namespace Rfc5916

open Asn1 Spec.X680

def objects : List Object :=
  [⟨.ATTRIBUTE, .oid [2, 16, 840, 1, 101, 2, 1, 5, 69], OBJECT_IDENTIFIER, (some .same)⟩]

def unlisted : List (ObjClass × Val) :=
  []

def registered : Objects := ⟨Verif.Rfc5916.asModule, objects, unlisted⟩

end Rfc5916
end Std
end Verif
