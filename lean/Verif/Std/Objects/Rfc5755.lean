import Verif.Asn1.Objects
import Verif.Std.Rfc5755
import Verif.Std.Rfc3281
import Verif.Std.Rfc5652

/-! The objects of rfc5755 (generated by tools/objgen.py from tools/std/objects.txt). -/

set_option maxRecDepth 100000

namespace Verif
namespace Std
namespace Rfc5755

open Asn1 Spec.X680

def objects : List Object :=
  [⟨.EXTENSION, .oid [1, 3, 6, 1, 5, 5, 7, 1, 4], OCTET_STRING, (some .same)⟩,
   ⟨.EXTENSION, .oid [2, 5, 29, 56], NULL, (some .same)⟩,
   ⟨.EXTENSION, .oid [2, 5, 29, 55], (SEQUENCE_OF Targets), (some (.refused [48, 2, 48, 0]))⟩,
   ⟨.EXTENSION, .oid [1, 3, 6, 1, 5, 5, 7, 1, 10], ProxyInfo, (some .same)⟩,
   ⟨.EXTENSION, .oid [1, 3, 6, 1, 5, 5, 7, 1, 6], AAControls, (some .same)⟩,
   ⟨.ATTRIBUTE, .oid [1, 3, 6, 1, 5, 5, 7, 10, 1], SvceAuthInfo, (some .same)⟩,
   ⟨.ATTRIBUTE, .oid [1, 3, 6, 1, 5, 5, 7, 10, 2], SvceAuthInfo, (some .same)⟩,
   ⟨.ATTRIBUTE, .oid [1, 3, 6, 1, 5, 5, 7, 10, 3], IetfAttrSyntax, (some .same)⟩,
   ⟨.ATTRIBUTE, .oid [1, 3, 6, 1, 5, 5, 7, 10, 4], IetfAttrSyntax, (some .same)⟩,
   ⟨.ATTRIBUTE, .oid [2, 5, 4, 72], RoleSyntax, (some .same)⟩,
   ⟨.ATTRIBUTE, .oid [2, 5, 4, 55], Clearance, (some (.rewritten (.record (Vals.cons (.oid [1, 3]) (Vals.cons (.bits [false, true]) (Vals.cons (.list (Vals.cons (.record (Vals.cons (.oid [1, 3]) (Vals.cons (.octets [5, 0]) (Vals.nil)))) (Vals.nil))) (Vals.nil)))))))⟩,
   ⟨.ATTRIBUTE, .oid [1, 3, 6, 1, 5, 5, 7, 10, 6], Std.Rfc5652.ContentInfo, (some .same)⟩,
   ⟨.ATTRIBUTE, .oid [2, 5, 1, 5, 55], Std.Rfc3281.Clearance, (some (.rewritten (.record (Vals.cons (.oid [1, 3]) (Vals.cons (.bits [false, true]) (Vals.cons (.list (Vals.cons (.record (Vals.cons (.oid [1, 3]) (Vals.cons (.octets [5, 0]) (Vals.nil)))) (Vals.nil))) (Vals.nil)))))))⟩]

def unlisted : List (ObjClass × Val) :=
  []

def registered : Objects := ⟨Verif.Rfc5755.asModule, objects, unlisted⟩

end Rfc5755
end Std
end Verif
