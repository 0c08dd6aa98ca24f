import Verif.Asn1.Objects
import Verif.Std.Rfc4010

/-! The objects of rfc4010 (generated by tools/objgen.py from tools/std/objects.txt). -/

set_option maxRecDepth 100000

namespace Verif
namespace Std
namespace Rfc4010

open Asn1 Spec.X680

def objects : List Object :=
  [⟨.ALGORITHM, .oid [1, 2, 410, 200004, 1, 4], SeedCBCParameter, (some .same)⟩,
   ⟨.SMIME_CAPS, .oid [1, 2, 410, 200004, 1, 4], SeedSMimeCapability, (some .same)⟩,
   ⟨.SMIME_CAPS, .oid [1, 2, 410, 200004, 7, 1, 1, 1], SeedSMimeCapability, (some .same)⟩]

def unlisted : List (ObjClass × Val) :=
  [(.ALGORITHM, .oid [1, 2, 410, 200004, 7, 1, 1, 1])]

def registered : Objects := ⟨Verif.Rfc4010.asModule, objects, unlisted⟩

end Rfc4010
end Std
end Verif
