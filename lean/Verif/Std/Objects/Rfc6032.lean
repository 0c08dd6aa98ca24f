import Verif.Asn1.Objects
import Verif.Std.Rfc6032

/-! The objects of rfc6032 (generated by tools/objgen.py from tools/std/objects.txt). -/

set_option maxRecDepth 100000

namespace Verif
namespace Std
namespace Rfc6032

open Asn1 Spec.X680

def objects : List Object :=
  [⟨.CMS_ATTRIBUTE, .oid [2, 16, 840, 1, 101, 2, 1, 5, 66], ContentDecryptKeyID, (some .same)⟩,
   ⟨.CONTENT_TYPE, .oid [2, 16, 840, 1, 101, 2, 1, 2, 78, 2], EncryptedKeyPackage, (some .same)⟩]

def unlisted : List (ObjClass × Val) :=
  []

def registered : Objects := ⟨Verif.Rfc6032.asModule, objects, unlisted⟩

end Rfc6032
end Std
end Verif
