import Verif.Asn1.Objects
import Verif.Std.Rfc8696

/-! The objects of rfc8696 (generated by tools/objgen.py from tools/std/objects.txt). -/

set_option maxRecDepth 100000

namespace Verif
namespace Std
namespace Rfc8696

open Asn1 Spec.X680

def objects : List Object :=
  [⟨.OTHER_RECIPIENT, .oid [1, 2, 840, 113549, 1, 9, 16, 13, 1], KeyTransPSKRecipientInfo, (some .same)⟩,
   ⟨.OTHER_RECIPIENT, .oid [1, 2, 840, 113549, 1, 9, 16, 13, 2], KeyAgreePSKRecipientInfo, (some .same)⟩]

def unlisted : List (ObjClass × Val) :=
  []

def registered : Objects := ⟨Verif.Rfc8696.asModule, objects, unlisted⟩

end Rfc8696
end Std
end Verif
