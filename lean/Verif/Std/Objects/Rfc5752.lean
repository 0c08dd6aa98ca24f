import Verif.Asn1.Objects
import Verif.Std.Rfc5752

/-! The objects of rfc5752 (generated by tools/objgen.py from tools/std/objects.txt). -/

set_option maxRecDepth 100000

namespace Verif
namespace Std
namespace Rfc5752

open Asn1 Spec.X680

def objects : List Object :=
  [⟨.CMS_ATTRIBUTE, .oid [1, 2, 840, 113549, 1, 9, 16, 2, 51], MultipleSignatures, (some (.changed [48, 23, 48, 3, 6, 1, 43, 48, 3, 6, 1, 43, 48, 7, 48, 3, 6, 1, 43, 4, 0, 48, 2, 4, 0]))⟩]

def unlisted : List (ObjClass × Val) :=
  []

def registered : Objects := ⟨Verif.Rfc5752.asModule, objects, unlisted⟩

end Rfc5752
end Std
end Verif
