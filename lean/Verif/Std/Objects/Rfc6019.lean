import Verif.Asn1.Objects
import Verif.Std.Rfc6019

/-! The objects of rfc6019 (generated by tools/objgen.py from tools/std/objects.txt). -/

set_option maxRecDepth 100000

namespace Verif
namespace Std
namespace Rfc6019

open Asn1 Spec.X680

def objects : List Object :=
  [⟨.CMS_ATTRIBUTE, .oid [1, 2, 840, 113549, 1, 9, 16, 2, 46], BinarySigningTime, (some .same)⟩]

def unlisted : List (ObjClass × Val) :=
  []

def registered : Objects := ⟨Verif.Rfc6019.asModule, objects, unlisted⟩

end Rfc6019
end Std
end Verif
