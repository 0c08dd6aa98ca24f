import Verif.Asn1.Objects
import Verif.Std.Rfc5958

/-! The objects of rfc5958 (generated by tools/objgen.py from tools/std/objects.txt). -/

set_option maxRecDepth 100000

namespace Verif
namespace Std
namespace Rfc5958

open Asn1 Spec.X680

def objects : List Object :=
  [⟨.CONTENT_TYPE, .oid [2, 16, 840, 1, 101, 2, 1, 2, 78, 5], AsymmetricKeyPackage, (some .same)⟩]

def unlisted : List (ObjClass × Val) :=
  []

def registered : Objects := ⟨Verif.Rfc5958.asModule, objects, unlisted⟩

end Rfc5958
end Std
end Verif
