import Verif.Asn1.Objects
import Verif.Std.Rfc6211

/-! The objects of rfc6211 (generated by tools/objgen.py from tools/std/objects.txt). -/

set_option maxRecDepth 100000

namespace Verif
namespace Std
namespace Rfc6211

open Asn1 Spec.X680

def objects : List Object :=
  [⟨.CMS_ATTRIBUTE, .oid [1, 2, 840, 113549, 1, 9, 52], CMSAlgorithmProtection, (some .same)⟩]

def unlisted : List (ObjClass × Val) :=
  []

def registered : Objects := ⟨Verif.Rfc6211.asModule, objects, unlisted⟩

end Rfc6211
end Std
end Verif
