import Verif.Asn1.Objects
import Verif.Std.Rfc8226

/-! The objects of rfc8226 (generated by tools/objgen.py from tools/std/objects.txt). -/

set_option maxRecDepth 100000

namespace Verif
namespace Std
namespace Rfc8226

open Asn1 Spec.X680

def objects : List Object :=
  [⟨.EXTENSION, .oid [1, 3, 6, 1, 5, 5, 7, 1, 26], TNAuthorizationList, (some .same)⟩,
   ⟨.EXTENSION, .oid [1, 3, 6, 1, 5, 5, 7, 1, 27], JWTClaimConstraints, (some .same)⟩]

def unlisted : List (ObjClass × Val) :=
  []

def registered : Objects := ⟨Verif.Rfc8226.asModule, objects, unlisted⟩

end Rfc8226
end Std
end Verif
