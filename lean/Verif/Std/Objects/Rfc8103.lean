import Verif.Asn1.Objects
import Verif.Std.Rfc8103

/-! The objects of rfc8103 (generated by tools/objgen.py from tools/std/objects.txt). -/

set_option maxRecDepth 100000

namespace Verif
namespace Std
namespace Rfc8103

open Asn1 Spec.X680

def objects : List Object :=
  [⟨.ALGORITHM, .oid [1, 2, 840, 113549, 1, 9, 16, 3, 18], AEADChaCha20Poly1305Nonce, none⟩]

def unlisted : List (ObjClass × Val) :=
  []

def registered : Objects := ⟨Verif.Rfc8103.asModule, objects, unlisted⟩

end Rfc8103
end Std
end Verif
