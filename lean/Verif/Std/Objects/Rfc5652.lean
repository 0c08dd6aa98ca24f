import Verif.Asn1.Objects
import Verif.Std.Rfc5652

/-! The objects of rfc5652 (generated by tools/objgen.py from tools/std/objects.txt). -/

set_option maxRecDepth 100000

namespace Verif
namespace Std
namespace Rfc5652

open Asn1 Spec.X680

def objects : List Object :=
  [⟨.CONTENT_TYPE, .oid [1, 2, 840, 113549, 1, 9, 16, 1, 6], ContentInfo, (some .same)⟩,
   ⟨.CONTENT_TYPE, .oid [1, 2, 840, 113549, 1, 7, 1], OCTET_STRING, (some .same)⟩,
   ⟨.CONTENT_TYPE, .oid [1, 2, 840, 113549, 1, 7, 2], SignedData, (some .same)⟩,
   ⟨.CONTENT_TYPE, .oid [1, 2, 840, 113549, 1, 7, 3], EnvelopedData, (some .same)⟩,
   ⟨.CONTENT_TYPE, .oid [1, 2, 840, 113549, 1, 7, 5], DigestedData, (some .same)⟩,
   ⟨.CONTENT_TYPE, .oid [1, 2, 840, 113549, 1, 7, 6], EncryptedData, (some .same)⟩,
   ⟨.CONTENT_TYPE, .oid [1, 2, 840, 113549, 1, 9, 16, 1, 2], AuthenticatedData, (some .same)⟩,
   ⟨.CMS_ATTRIBUTE, .oid [1, 2, 840, 113549, 1, 9, 3], ContentType, (some .same)⟩,
   ⟨.CMS_ATTRIBUTE, .oid [1, 2, 840, 113549, 1, 9, 4], MessageDigest, (some .same)⟩,
   ⟨.CMS_ATTRIBUTE, .oid [1, 2, 840, 113549, 1, 9, 5], SigningTime, (some .same)⟩,
   ⟨.CMS_ATTRIBUTE, .oid [1, 2, 840, 113549, 1, 9, 6], Countersignature, (some .same)⟩]

def unlisted : List (ObjClass × Val) :=
  []

def registered : Objects := ⟨Verif.Rfc5652.asModule, objects, unlisted⟩

end Rfc5652
end Std
end Verif
