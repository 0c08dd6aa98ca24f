import Verif.Asn1.Objects
import Verif.Std.Rfc5275

/-! The objects of rfc5275 (generated by tools/objgen.py from tools/std/objects.txt). -/

set_option maxRecDepth 100000

namespace Verif
namespace Std
namespace Rfc5275

open Asn1 Spec.X680

def objects : List Object :=
  [⟨.GLA_QUERY, .oid [1, 3, 6, 1, 5, 5, 7, 7, 99, 1], NULL, (some .same)⟩,
   ⟨.GLA_QUERY, .oid [1, 3, 6, 1, 5, 5, 7, 7, 99, 2], Std.Rfc5751.SMIMECapabilities, (some .same)⟩,
   ⟨.CMS_ATTRIBUTE, .oid [1, 2, 840, 113549, 1, 9, 16, 8, 1], GLUseKEK, (some .same)⟩,
   ⟨.CMS_ATTRIBUTE, .oid [1, 2, 840, 113549, 1, 9, 16, 8, 2], DeleteGL, (some .same)⟩,
   ⟨.CMS_ATTRIBUTE, .oid [1, 2, 840, 113549, 1, 9, 16, 8, 3], GLAddMember, (some .same)⟩,
   ⟨.CMS_ATTRIBUTE, .oid [1, 2, 840, 113549, 1, 9, 16, 8, 4], GLDeleteMember, (some .same)⟩,
   ⟨.CMS_ATTRIBUTE, .oid [1, 2, 840, 113549, 1, 9, 16, 8, 5], GLRekey, (some .same)⟩,
   ⟨.CMS_ATTRIBUTE, .oid [1, 2, 840, 113549, 1, 9, 16, 8, 6], GLOwnerAdministration, (some .same)⟩,
   ⟨.CMS_ATTRIBUTE, .oid [1, 2, 840, 113549, 1, 9, 16, 8, 7], GLOwnerAdministration, (some .same)⟩,
   ⟨.CMS_ATTRIBUTE, .oid [1, 2, 840, 113549, 1, 9, 16, 8, 8], GLKCompromise, (some .same)⟩,
   ⟨.CMS_ATTRIBUTE, .oid [1, 2, 840, 113549, 1, 9, 16, 8, 9], GLKRefresh, (some .same)⟩,
   ⟨.CMS_ATTRIBUTE, .oid [1, 2, 840, 113549, 1, 9, 16, 8, 11], GLAQueryRequest, (some .same)⟩,
   ⟨.CMS_ATTRIBUTE, .oid [1, 2, 840, 113549, 1, 9, 16, 8, 12], GLAQueryResponse, (some .same)⟩,
   ⟨.CMS_ATTRIBUTE, .oid [1, 2, 840, 113549, 1, 9, 16, 8, 13], GLManageCert, (some .same)⟩,
   ⟨.CMS_ATTRIBUTE, .oid [1, 2, 840, 113549, 1, 9, 16, 8, 14], GLManageCert, (some .same)⟩,
   ⟨.CMS_ATTRIBUTE, .oid [1, 2, 840, 113549, 1, 9, 16, 8, 15], GLKey, (some .same)⟩]

def unlisted : List (ObjClass × Val) :=
  []

def registered : Objects := ⟨Verif.Rfc5275.asModule, objects, unlisted⟩

end Rfc5275
end Std
end Verif
