import Verif.Asn1.Objects
import Verif.Std.Rfc6210

/-! The objects of rfc6210 (generated by tools/objgen.py from tools/std/objects.txt). -/

set_option maxRecDepth 100000

namespace Verif
namespace Std
namespace Rfc6210

open Asn1 Spec.X680

def objects : List Object :=
  [⟨.ALGORITHM, .oid [1, 2, 840, 113549, 1, 9, 16, 3, 13], MD5_XOR_EXPERIMENT, (some .same)⟩]

def unlisted : List (ObjClass × Val) :=
  []

def registered : Objects := ⟨Verif.Rfc6210.asModule, objects, unlisted⟩

end Rfc6210
end Std
end Verif
