import Verif.Asn1.Objects
import Verif.Std.Rfc7585

/-! The objects of rfc7585 (generated by tools/objgen.py from tools/std/objects.txt). -/

set_option maxRecDepth 100000

namespace Verif
namespace Std
namespace Rfc7585

open Asn1 Spec.X680

def objects : List Object :=
  [⟨.OTHER_NAME, .oid [1, 3, 6, 1, 5, 5, 7, 8, 8], NAIRealm, (some .same)⟩]

def unlisted : List (ObjClass × Val) :=
  []

def registered : Objects := ⟨Verif.Rfc7585.asModule, objects, unlisted⟩

end Rfc7585
end Std
end Verif
