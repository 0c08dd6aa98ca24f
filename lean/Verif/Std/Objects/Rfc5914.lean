import Verif.Asn1.Objects
import Verif.Std.Rfc5914

/-! The objects of rfc5914 (generated by tools/objgen.py from tools/std/objects.txt). -/

set_option maxRecDepth 100000

namespace Verif
namespace Std
namespace Rfc5914

open Asn1 Spec.X680

def objects : List Object :=
  [⟨.CONTENT_TYPE, .oid [1, 2, 840, 113549, 1, 9, 16, 1, 34], TrustAnchorList, none⟩]

def unlisted : List (ObjClass × Val) :=
  []

def registered : Objects := ⟨Verif.Rfc5914.asModule, objects, unlisted⟩

end Rfc5914
end Std
end Verif
