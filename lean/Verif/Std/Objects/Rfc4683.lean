import Verif.Asn1.Objects
import Verif.Std.Rfc4683

/-! The objects of rfc4683 (generated by tools/objgen.py from tools/std/objects.txt). -/

set_option maxRecDepth 100000

namespace Verif
namespace Std
namespace Rfc4683

open Asn1 Spec.X680

def objects : List Object :=
  [⟨.OTHER_NAME, .oid [1, 3, 6, 1, 5, 5, 7, 8, 6], SIM, (some .same)⟩]

def unlisted : List (ObjClass × Val) :=
  []

def registered : Objects := ⟨Verif.Rfc4683.asModule, objects, unlisted⟩

end Rfc4683
end Std
end Verif
