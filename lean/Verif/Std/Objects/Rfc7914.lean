import Verif.Asn1.Objects
import Verif.Std.Rfc7914

/-! The objects of rfc7914 (generated by tools/objgen.py from tools/std/objects.txt). -/

set_option maxRecDepth 100000

namespace Verif
namespace Std
namespace Rfc7914

open Asn1 Spec.X680

def objects : List Object :=
  [⟨.ALGORITHM, .oid [1, 3, 6, 1, 4, 1, 11591, 4, 11], Scrypt_params, (some .same)⟩]

def unlisted : List (ObjClass × Val) :=
  []

def registered : Objects := ⟨Verif.Rfc7914.asModule, objects, unlisted⟩

end Rfc7914
end Std
end Verif
