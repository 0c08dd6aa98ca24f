import Verif.Asn1.Objects
import Verif.Std.Rfc7030

/-! The objects of rfc7030 (generated by tools/objgen.py from tools/std/objects.txt). -/

set_option maxRecDepth 100000

namespace Verif
namespace Std
namespace Rfc7030

open Asn1 Spec.X680

def objects : List Object :=
  [⟨.CMS_ATTRIBUTE, .oid [1, 2, 840, 113549, 1, 9, 16, 2, 54], AsymmetricDecryptKeyIdentifier, (some .same)⟩]

def unlisted : List (ObjClass × Val) :=
  []

def registered : Objects := ⟨Verif.Rfc7030.asModule, objects, unlisted⟩

end Rfc7030
end Std
end Verif
