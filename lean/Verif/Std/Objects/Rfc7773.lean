import Verif.Asn1.Objects
import Verif.Std.Rfc7773

/-! The objects of rfc7773 (generated by tools/objgen.py from tools/std/objects.txt). -/

set_option maxRecDepth 100000

namespace Verif
namespace Std
namespace Rfc7773

open Asn1 Spec.X680

def objects : List Object :=
  [⟨.EXTENSION, .oid [1, 2, 752, 201, 5, 1], AuthenticationContexts, (some .same)⟩]

def unlisted : List (ObjClass × Val) :=
  []

def registered : Objects := ⟨Verif.Rfc7773.asModule, objects, unlisted⟩

end Rfc7773
end Std
end Verif
