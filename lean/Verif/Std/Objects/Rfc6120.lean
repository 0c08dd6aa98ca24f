import Verif.Asn1.Objects
import Verif.Std.Rfc6120

/-! The objects of rfc6120 (generated by tools/objgen.py from tools/std/objects.txt). -/

set_option maxRecDepth 100000

namespace Verif
namespace Std
namespace Rfc6120

open Asn1 Spec.X680

def objects : List Object :=
  [⟨.OTHER_NAME, .oid [1, 3, 6, 1, 5, 5, 7, 8, 5], XmppAddr, (some .same)⟩]

def unlisted : List (ObjClass × Val) :=
  []

def registered : Objects := ⟨Verif.Rfc6120.asModule, objects, unlisted⟩

end Rfc6120
end Std
end Verif
