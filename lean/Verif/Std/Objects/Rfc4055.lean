import Verif.Asn1.Objects
import Verif.Std.Rfc4055

/-! The objects of rfc4055 (generated by tools/objgen.py from tools/std/objects.txt). -/

set_option maxRecDepth 100000

namespace Verif
namespace Std
namespace Rfc4055

open Asn1 Spec.X680

def objects : List Object :=
  [⟨.ALGORITHM, .oid [1, 3, 14, 3, 2, 26], NULL, (some .same)⟩,
   ⟨.ALGORITHM, .oid [2, 16, 840, 1, 101, 3, 4, 2, 4], NULL, (some .same)⟩,
   ⟨.ALGORITHM, .oid [2, 16, 840, 1, 101, 3, 4, 2, 1], NULL, (some .same)⟩,
   ⟨.ALGORITHM, .oid [2, 16, 840, 1, 101, 3, 4, 2, 2], NULL, (some .same)⟩,
   ⟨.ALGORITHM, .oid [2, 16, 840, 1, 101, 3, 4, 2, 3], NULL, (some .same)⟩,
   ⟨.ALGORITHM, .oid [1, 2, 840, 113549, 1, 1, 8], Std.Rfc5280.AlgorithmIdentifier, (some .same)⟩,
   ⟨.ALGORITHM, .oid [1, 2, 840, 113549, 1, 1, 9], OCTET_STRING, (some .same)⟩,
   ⟨.ALGORITHM, .oid [1, 2, 840, 113549, 1, 1, 7], RSAES_OAEP_params, (some (.changed [48, 0]))⟩,
   ⟨.ALGORITHM, .oid [1, 2, 840, 113549, 1, 1, 10], RSASSA_PSS_params, (some (.changed [48, 0]))⟩,
   ⟨.ALGORITHM, .oid [1, 2, 840, 113549, 1, 1, 1], NULL, none⟩,
   ⟨.ALGORITHM, .oid [1, 2, 840, 113549, 1, 1, 14], NULL, none⟩,
   ⟨.ALGORITHM, .oid [1, 2, 840, 113549, 1, 1, 11], NULL, none⟩,
   ⟨.ALGORITHM, .oid [1, 2, 840, 113549, 1, 1, 12], NULL, none⟩,
   ⟨.ALGORITHM, .oid [1, 2, 840, 113549, 1, 1, 13], NULL, none⟩]

def unlisted : List (ObjClass × Val) :=
  []

def registered : Objects := ⟨Verif.Rfc4055.asModule, objects, unlisted⟩

end Rfc4055
end Std
end Verif
