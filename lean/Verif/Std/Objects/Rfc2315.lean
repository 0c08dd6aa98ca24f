import Verif.Asn1.Objects
import Verif.Std.Rfc2315

/-! The objects of rfc2315 (generated by tools/objgen.py from tools/std/objects.txt). -/

set_option maxRecDepth 100000

namespace Verif
namespace Std
namespace Rfc2315

open Asn1 Spec.X680

def objects : List Object :=
  [⟨.PKCS7_CONTENT, .oid [1, 2, 840, 113549, 1, 7, 1], Data, (some .same)⟩,
   ⟨.PKCS7_CONTENT, .oid [1, 2, 840, 113549, 1, 7, 2], SignedData, (some .widened)⟩,
   ⟨.PKCS7_CONTENT, .oid [1, 2, 840, 113549, 1, 7, 3], EnvelopedData, (some .relaxed)⟩,
   ⟨.PKCS7_CONTENT, .oid [1, 2, 840, 113549, 1, 7, 4], SignedAndEnvelopedData, (some .relaxed)⟩,
   ⟨.PKCS7_CONTENT, .oid [1, 2, 840, 113549, 1, 7, 5], DigestedData, (some .same)⟩,
   ⟨.PKCS7_CONTENT, .oid [1, 2, 840, 113549, 1, 7, 6], EncryptedData, (some .same)⟩]

def unlisted : List (ObjClass × Val) :=
  []

def registered : Objects := ⟨Verif.Rfc2315.asModule, objects, unlisted⟩

end Rfc2315
end Std
end Verif
