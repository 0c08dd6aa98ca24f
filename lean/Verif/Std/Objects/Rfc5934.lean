import Verif.Asn1.Objects
import Verif.Std.Rfc5934

/-! The objects of rfc5934 (generated by tools/objgen.py from tools/std/objects.txt). -/

set_option maxRecDepth 100000

namespace Verif
namespace Std
namespace Rfc5934

open Asn1 Spec.X680

def objects : List Object :=
  [⟨.CONTENT_TYPE, .oid [2, 16, 840, 1, 101, 2, 1, 2, 77, 1], TAMPStatusQuery, (some .same)⟩,
   ⟨.CONTENT_TYPE, .oid [2, 16, 840, 1, 101, 2, 1, 2, 77, 2], TAMPStatusResponse, (some .relaxed)⟩,
   ⟨.CONTENT_TYPE, .oid [2, 16, 840, 1, 101, 2, 1, 2, 77, 3], TAMPUpdate, (some .relaxed)⟩,
   ⟨.CONTENT_TYPE, .oid [2, 16, 840, 1, 101, 2, 1, 2, 77, 4], TAMPUpdateConfirm, (some .relaxed)⟩,
   ⟨.CONTENT_TYPE, .oid [2, 16, 840, 1, 101, 2, 1, 2, 77, 5], TAMPApexUpdate, (some .relaxed)⟩,
   ⟨.CONTENT_TYPE, .oid [2, 16, 840, 1, 101, 2, 1, 2, 77, 6], TAMPApexUpdateConfirm, (some .relaxed)⟩,
   ⟨.CONTENT_TYPE, .oid [2, 16, 840, 1, 101, 2, 1, 2, 77, 7], TAMPCommunityUpdate, (some .same)⟩,
   ⟨.CONTENT_TYPE, .oid [2, 16, 840, 1, 101, 2, 1, 2, 77, 8], TAMPCommunityUpdateConfirm, (some .same)⟩,
   ⟨.CONTENT_TYPE, .oid [2, 16, 840, 1, 101, 2, 1, 2, 77, 10], SequenceNumberAdjust, (some .same)⟩,
   ⟨.CONTENT_TYPE, .oid [2, 16, 840, 1, 101, 2, 1, 2, 77, 11], SequenceNumberAdjustConfirm, (some .same)⟩,
   ⟨.CONTENT_TYPE, .oid [2, 16, 840, 1, 101, 2, 1, 2, 77, 9], TAMPError, (some .same)⟩,
   ⟨.CMS_ATTRIBUTE, .oid [2, 16, 840, 1, 101, 2, 1, 5, 63], PlaintextSymmetricKey, (some .same)⟩,
   ⟨.EXTENSION, .oid [1, 3, 6, 1, 5, 5, 7, 1, 20], ApexContingencyKey, (some .same)⟩]

def unlisted : List (ObjClass × Val) :=
  []

def registered : Objects := ⟨Verif.Rfc5934.asModule, objects, unlisted⟩

end Rfc5934
end Std
end Verif
