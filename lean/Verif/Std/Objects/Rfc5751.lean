import Verif.Asn1.Objects
import Verif.Std.Rfc5751

/-! The objects of rfc5751 (generated by tools/objgen.py from tools/std/objects.txt). -/

set_option maxRecDepth 100000

namespace Verif
namespace Std
namespace Rfc5751

open Asn1 Spec.X680

def objects : List Object :=
  [⟨.CMS_ATTRIBUTE, .oid [1, 2, 840, 113549, 1, 9, 15], SMIMECapabilities, (some .same)⟩,
   ⟨.CMS_ATTRIBUTE, .oid [1, 2, 840, 113549, 1, 9, 16, 2, 11], SMIMEEncryptionKeyPreference, (some .same)⟩,
   ⟨.SMIME_CAPS, .oid [1, 2, 840, 113549, 3, 2], SMIMECapabilitiesParametersForRC2CBC, (some .same)⟩]

def unlisted : List (ObjClass × Val) :=
  []

def registered : Objects := ⟨Verif.Rfc5751.asModule, objects, unlisted⟩

end Rfc5751
end Std
end Verif
