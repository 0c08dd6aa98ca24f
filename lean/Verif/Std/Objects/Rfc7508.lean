import Verif.Asn1.Objects
import Verif.Std.Rfc7508

/-! The objects of rfc7508 (generated by tools/objgen.py from tools/std/objects.txt). -/

set_option maxRecDepth 100000

namespace Verif
namespace Std
namespace Rfc7508

open Asn1 Spec.X680

def objects : List Object :=
  [⟨.CMS_ATTRIBUTE, .oid [1, 2, 840, 113549, 1, 9, 16, 2, 55], SecureHeaderFields, (some .relaxed)⟩]

def unlisted : List (ObjClass × Val) :=
  []

def registered : Objects := ⟨Verif.Rfc7508.asModule, objects, unlisted⟩

end Rfc7508
end Std
end Verif
