import Verif.Asn1.Objects
import Verif.Std.Rfc2634

/-! The objects of rfc2634 (generated by tools/objgen.py from tools/std/objects.txt). -/

set_option maxRecDepth 100000

namespace Verif
namespace Std
namespace Rfc2634

open Asn1 Spec.X680

def objects : List Object :=
  [⟨.CMS_ATTRIBUTE, .oid [1, 2, 840, 113549, 1, 9, 16, 2, 12], SigningCertificate, (some .relaxed)⟩,
   ⟨.CMS_ATTRIBUTE, .oid [1, 2, 840, 113549, 1, 9, 16, 2, 3], MLExpansionHistory, (some .same)⟩,
   ⟨.CMS_ATTRIBUTE, .oid [1, 2, 840, 113549, 1, 9, 16, 2, 2], ESSSecurityLabel, (some (.rewritten (.record (Vals.cons (.oid [1, 3]) (Vals.cons (.absent) (Vals.cons (.absent) (Vals.cons (.list (Vals.cons (.record (Vals.cons (.oid [1, 3]) (Vals.cons (.octets [5, 0]) (Vals.nil)))) (Vals.nil))) (Vals.nil))))))))⟩,
   ⟨.CMS_ATTRIBUTE, .oid [1, 2, 840, 113549, 1, 9, 16, 2, 9], EquivalentLabels, (some (.rewritten (.list (Vals.cons (.record (Vals.cons (.oid [1, 3]) (Vals.cons (.absent) (Vals.cons (.absent) (Vals.cons (.list (Vals.cons (.record (Vals.cons (.oid [1, 3]) (Vals.cons (.octets [5, 0]) (Vals.nil)))) (Vals.nil))) (Vals.nil)))))) (Vals.nil)))))⟩,
   ⟨.CMS_ATTRIBUTE, .oid [1, 2, 840, 113549, 1, 9, 16, 2, 7], ContentIdentifier, (some .same)⟩,
   ⟨.CMS_ATTRIBUTE, .oid [1, 2, 840, 113549, 1, 9, 16, 2, 10], ContentReference, (some .same)⟩,
   ⟨.CMS_ATTRIBUTE, .oid [1, 2, 840, 113549, 1, 9, 16, 2, 5], MsgSigDigest, (some .same)⟩,
   ⟨.CMS_ATTRIBUTE, .oid [1, 2, 840, 113549, 1, 9, 16, 2, 4], ContentHints, (some .same)⟩,
   ⟨.CMS_ATTRIBUTE, .oid [1, 2, 840, 113549, 1, 9, 16, 2, 1], ReceiptRequest, (some .same)⟩,
   ⟨.CONTENT_TYPE, .oid [1, 2, 840, 113549, 1, 9, 16, 1, 1], Receipt, (some .same)⟩]

def unlisted : List (ObjClass × Val) :=
  []

def registered : Objects := ⟨Verif.Rfc2634.asModule, objects, unlisted⟩

end Rfc2634
end Std
end Verif
