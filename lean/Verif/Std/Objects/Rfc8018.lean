import Verif.Asn1.Objects
import Verif.Std.Rfc8018

/-! The objects of rfc8018 (generated by tools/objgen.py from tools/std/objects.txt). -/

set_option maxRecDepth 100000

namespace Verif
namespace Std
namespace Rfc8018

open Asn1 Spec.X680

def objects : List Object :=
  [⟨.ALGORITHM, .oid [1, 2, 840, 113549, 2, 7], NULL, (some .same)⟩,
   ⟨.ALGORITHM, .oid [1, 2, 840, 113549, 2, 8], NULL, (some .same)⟩,
   ⟨.ALGORITHM, .oid [1, 2, 840, 113549, 2, 9], NULL, (some .same)⟩,
   ⟨.ALGORITHM, .oid [1, 2, 840, 113549, 2, 10], NULL, (some .same)⟩,
   ⟨.ALGORITHM, .oid [1, 2, 840, 113549, 2, 11], NULL, (some .same)⟩,
   ⟨.ALGORITHM, .oid [1, 2, 840, 113549, 2, 12], NULL, (some .same)⟩,
   ⟨.ALGORITHM, .oid [1, 2, 840, 113549, 2, 13], NULL, (some .same)⟩,
   ⟨.ALGORITHM, .oid [1, 2, 840, 113549, 1, 5, 1], PBEParameter, (some .same)⟩,
   ⟨.ALGORITHM, .oid [1, 2, 840, 113549, 1, 5, 4], PBEParameter, (some .same)⟩,
   ⟨.ALGORITHM, .oid [1, 2, 840, 113549, 1, 5, 3], PBEParameter, (some .same)⟩,
   ⟨.ALGORITHM, .oid [1, 2, 840, 113549, 1, 5, 6], PBEParameter, (some .same)⟩,
   ⟨.ALGORITHM, .oid [1, 2, 840, 113549, 1, 5, 10], PBEParameter, (some .same)⟩,
   ⟨.ALGORITHM, .oid [1, 2, 840, 113549, 1, 5, 11], PBEParameter, (some .same)⟩,
   ⟨.ALGORITHM, .oid [1, 2, 840, 113549, 1, 5, 13], PBES2_params, (some .same)⟩,
   ⟨.ALGORITHM, .oid [1, 2, 840, 113549, 1, 5, 12], PBKDF2_params, (some .same)⟩,
   ⟨.ALGORITHM, .oid [1, 2, 840, 113549, 1, 5, 14], PBMAC1_params, (some .same)⟩,
   ⟨.ALGORITHM, .oid [1, 3, 14, 3, 2, 7], (constrained (SIZE 8 8) OCTET_STRING), (some .same)⟩,
   ⟨.ALGORITHM, .oid [1, 2, 840, 113549, 3, 7], (constrained (SIZE 8 8) OCTET_STRING), (some .same)⟩,
   ⟨.ALGORITHM, .oid [1, 2, 840, 113549, 3, 2], RC2_CBC_Parameter, (some .same)⟩,
   ⟨.ALGORITHM, .oid [1, 2, 840, 113549, 3, 9], RC5_CBC_Parameters, (some .same)⟩,
   ⟨.ALGORITHM, .oid [2, 16, 840, 1, 101, 3, 4, 1, 2], (constrained (SIZE 16 16) OCTET_STRING), (some .same)⟩,
   ⟨.ALGORITHM, .oid [2, 16, 840, 1, 101, 3, 4, 1, 22], (constrained (SIZE 16 16) OCTET_STRING), (some .same)⟩,
   ⟨.ALGORITHM, .oid [2, 16, 840, 1, 101, 3, 4, 1, 42], (constrained (SIZE 16 16) OCTET_STRING), (some .same)⟩]

def unlisted : List (ObjClass × Val) :=
  []

def registered : Objects := ⟨Verif.Rfc8018.asModule, objects, unlisted⟩

end Rfc8018
end Std
end Verif
