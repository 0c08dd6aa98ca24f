import Verif.Asn1.Objects
import Verif.Std.Rfc5035

/-! The objects of rfc5035 (generated by tools/objgen.py from tools/std/objects.txt). -/

set_option maxRecDepth 100000

namespace Verif
namespace Std
namespace Rfc5035

open Asn1 Spec.X680

def objects : List Object :=
  [⟨.CMS_ATTRIBUTE, .oid [1, 2, 840, 113549, 1, 9, 16, 2, 47], SigningCertificateV2, (some (.changed [48, 6, 48, 4, 48, 2, 4, 0]))⟩,
   ⟨.CONTENT_TYPE, .oid [1, 2, 840, 113549, 1, 9, 16, 1, 1], Std.Rfc2634.Receipt, (some .same)⟩]

def unlisted : List (ObjClass × Val) :=
  []

def registered : Objects := ⟨Verif.Rfc5035.asModule, objects, unlisted⟩

end Rfc5035
end Std
end Verif
