import Verif.Asn1.Objects
import Verif.Std.Rfc5697

/-! The objects of rfc5697 (generated by tools/objgen.py from tools/std/objects.txt). -/

set_option maxRecDepth 100000

namespace Verif
namespace Std
namespace Rfc5697

open Asn1 Spec.X680

def objects : List Object :=
  [⟨.EXTENSION, .oid [1, 3, 6, 1, 5, 5, 7, 1, 19], OtherCertificates, (some .same)⟩]

def unlisted : List (ObjClass × Val) :=
  []

def registered : Objects := ⟨Verif.Rfc5697.asModule, objects, unlisted⟩

end Rfc5697
end Std
end Verif
