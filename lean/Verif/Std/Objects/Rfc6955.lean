import Verif.Asn1.Objects
import Verif.Std.Rfc6955

/-! The objects of rfc6955 (generated by tools/objgen.py from tools/std/objects.txt). -/

set_option maxRecDepth 100000

namespace Verif
namespace Std
namespace Rfc6955

open Asn1 Spec.X680

def objects : List Object :=
  [⟨.ALGORITHM, .oid [1, 3, 6, 1, 5, 5, 7, 6, 4], Std.Rfc3279.DomainParameters, (some .same)⟩,
   ⟨.ALGORITHM, .oid [1, 3, 6, 1, 5, 5, 7, 6, 5], Std.Rfc3279.DomainParameters, (some .same)⟩,
   ⟨.ALGORITHM, .oid [1, 3, 6, 1, 5, 5, 7, 6, 6], Std.Rfc3279.DomainParameters, (some .same)⟩,
   ⟨.ALGORITHM, .oid [1, 3, 6, 1, 5, 5, 7, 6, 7], Std.Rfc3279.DomainParameters, (some .same)⟩,
   ⟨.ALGORITHM, .oid [1, 3, 6, 1, 5, 5, 7, 6, 8], Std.Rfc3279.DomainParameters, (some .same)⟩]

def unlisted : List (ObjClass × Val) :=
  [(.ALGORITHM, .oid [1, 3, 6, 1, 5, 5, 7, 6, 3]),
   (.ALGORITHM, .oid [1, 3, 6, 1, 5, 5, 7, 6, 15]),
   (.ALGORITHM, .oid [1, 3, 6, 1, 5, 5, 7, 6, 16]),
   (.ALGORITHM, .oid [1, 3, 6, 1, 5, 5, 7, 6, 17]),
   (.ALGORITHM, .oid [1, 3, 6, 1, 5, 5, 7, 6, 18]),
   (.ALGORITHM, .oid [1, 3, 6, 1, 5, 5, 7, 6, 25]),
   (.ALGORITHM, .oid [1, 3, 6, 1, 5, 5, 7, 6, 26]),
   (.ALGORITHM, .oid [1, 3, 6, 1, 5, 5, 7, 6, 27]),
   (.ALGORITHM, .oid [1, 3, 6, 1, 5, 5, 7, 6, 28])]

def registered : Objects := ⟨Verif.Rfc6955.asModule, objects, unlisted⟩

end Rfc6955
end Std
end Verif
