import Verif.Asn1.Objects
import Verif.Std.Rfc7191

/-! The objects of rfc7191 (generated by tools/objgen.py from tools/std/objects.txt). -/

set_option maxRecDepth 100000

namespace Verif
namespace Std
namespace Rfc7191

open Asn1 Spec.X680

def objects : List Object :=
  [⟨.CMS_ATTRIBUTE, .oid [2, 16, 840, 1, 101, 2, 1, 5, 65], KeyPkgIdentifierAndReceiptReq, (some .same)⟩,
   ⟨.CONTENT_TYPE, .oid [2, 16, 840, 1, 101, 2, 1, 2, 78, 6], KeyPackageError, (some .same)⟩,
   ⟨.CONTENT_TYPE, .oid [2, 16, 840, 1, 101, 2, 1, 2, 78, 3], KeyPackageReceipt, (some .same)⟩]

def unlisted : List (ObjClass × Val) :=
  []

def registered : Objects := ⟨Verif.Rfc7191.asModule, objects, unlisted⟩

end Rfc7191
end Std
end Verif
