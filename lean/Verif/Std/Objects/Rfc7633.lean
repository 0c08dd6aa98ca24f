import Verif.Asn1.Objects
import Verif.Std.Rfc7633

/-! The objects of rfc7633 (generated by tools/objgen.py from tools/std/objects.txt). -/

set_option maxRecDepth 100000

namespace Verif
namespace Std
namespace Rfc7633

open Asn1 Spec.X680

def objects : List Object :=
  [⟨.EXTENSION, .oid [1, 3, 6, 1, 5, 5, 7, 1, 24], Features, (some .same)⟩]

def unlisted : List (ObjClass × Val) :=
  []

def registered : Objects := ⟨Verif.Rfc7633.asModule, objects, unlisted⟩

end Rfc7633
end Std
end Verif
