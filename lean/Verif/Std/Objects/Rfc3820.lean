import Verif.Asn1.Objects
import Verif.Std.Rfc3820

/-! The objects of rfc3820 (generated by tools/objgen.py from tools/std/objects.txt). -/

set_option maxRecDepth 100000

namespace Verif
namespace Std
namespace Rfc3820

open Asn1 Spec.X680

def objects : List Object :=
  [⟨.EXTENSION, .oid [1, 3, 6, 1, 5, 5, 7, 1, 14], ProxyCertInfoExtension, (some .same)⟩]

def unlisted : List (ObjClass × Val) :=
  []

def registered : Objects := ⟨Verif.Rfc3820.asModule, objects, unlisted⟩

end Rfc3820
end Std
end Verif
