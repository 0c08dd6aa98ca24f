import Verif.Asn1.Objects
import Verif.Std.Rfc8398

/-! The objects of rfc8398 (generated by tools/objgen.py from tools/std/objects.txt). -/

set_option maxRecDepth 100000

namespace Verif
namespace Std
namespace Rfc8398

open Asn1 Spec.X680

def objects : List Object :=
  [⟨.OTHER_NAME, .oid [1, 3, 6, 1, 5, 5, 7, 8, 9], SmtpUTF8Mailbox, (some .same)⟩]

def unlisted : List (ObjClass × Val) :=
  []

def registered : Objects := ⟨Verif.Rfc8398.asModule, objects, unlisted⟩

end Rfc8398
end Std
end Verif
