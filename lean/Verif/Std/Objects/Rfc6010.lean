import Verif.Asn1.Objects
import Verif.Std.Rfc6010

/-! The objects of rfc6010 (generated by tools/objgen.py from tools/std/objects.txt). -/

set_option maxRecDepth 100000

namespace Verif
namespace Std
namespace Rfc6010

open Asn1 Spec.X680

def objects : List Object :=
  [⟨.EXTENSION, .oid [1, 3, 6, 1, 5, 5, 7, 1, 18], CMSContentConstraints, (some .same)⟩]

def unlisted : List (ObjClass × Val) :=
  []

def registered : Objects := ⟨Verif.Rfc6010.asModule, objects, unlisted⟩

end Rfc6010
end Std
end Verif
