import Verif.Asn1.Objects
import Verif.Std.Rfc4476

/-! The objects of rfc4476 (generated by tools/objgen.py from tools/std/objects.txt). -/

set_option maxRecDepth 100000

namespace Verif
namespace Std
namespace Rfc4476

open Asn1 Spec.X680

def objects : List Object :=
  [⟨.CERT_POLICY_QUALIFIER, .oid [1, 3, 6, 1, 5, 5, 7, 2, 4], ACPSuri, (some .same)⟩,
   ⟨.CERT_POLICY_QUALIFIER, .oid [1, 3, 6, 1, 5, 5, 7, 2, 5], ACUserNotice, (some .same)⟩,
   ⟨.EXTENSION, .oid [1, 3, 6, 1, 5, 5, 7, 1, 15], AcPoliciesSyntax, (some .relaxed)⟩]

def unlisted : List (ObjClass × Val) :=
  []

def registered : Objects := ⟨Verif.Rfc4476.asModule, objects, unlisted⟩

end Rfc4476
end Std
end Verif
