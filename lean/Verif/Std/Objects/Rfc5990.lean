import Verif.Asn1.Objects
import Verif.Std.Rfc5990

/-! The objects of rfc5990 (generated by tools/objgen.py from tools/std/objects.txt). -/

set_option maxRecDepth 100000

namespace Verif
namespace Std
namespace Rfc5990

open Asn1 Spec.X680

def objects : List Object :=
  [⟨.ALGORITHM, .oid [1, 2, 840, 113549, 1, 9, 16, 3, 14], GenericHybridParameters, (some .same)⟩,
   ⟨.ALGORITHM, .oid [1, 0, 18033, 2, 2, 4], RsaKemParameters, (some .same)⟩,
   ⟨.ALGORITHM, .oid [1, 3, 133, 16, 840, 9, 44, 1, 1], KDF2_HashFunction, (some .same)⟩,
   ⟨.ALGORITHM, .oid [1, 3, 133, 16, 840, 9, 44, 1, 2], KDF3_HashFunction, (some .same)⟩,
   ⟨.ALGORITHM, .oid [1, 3, 14, 3, 2, 26], NULL, (some .same)⟩,
   ⟨.ALGORITHM, .oid [2, 16, 840, 1, 101, 3, 4, 2, 4], NULL, (some .same)⟩,
   ⟨.ALGORITHM, .oid [2, 16, 840, 1, 101, 3, 4, 2, 1], NULL, (some .same)⟩,
   ⟨.ALGORITHM, .oid [2, 16, 840, 1, 101, 3, 4, 2, 2], NULL, (some .same)⟩,
   ⟨.ALGORITHM, .oid [2, 16, 840, 1, 101, 3, 4, 2, 3], NULL, (some .same)⟩,
   ⟨.ALGORITHM, .oid [1, 2, 840, 113549, 1, 9, 16, 3, 6], NULL, (some .same)⟩]

def unlisted : List (ObjClass × Val) :=
  []

def registered : Objects := ⟨Verif.Rfc5990.asModule, objects, unlisted⟩

end Rfc5990
end Std
end Verif
