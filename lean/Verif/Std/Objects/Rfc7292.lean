import Verif.Asn1.Objects
import Verif.Std.Rfc7292

/-! The objects of rfc7292 (generated by tools/objgen.py from tools/std/objects.txt). -/

set_option maxRecDepth 100000

namespace Verif
namespace Std
namespace Rfc7292

open Asn1 Spec.X680

def objects : List Object :=
  [⟨.BAG_TYPE, .oid [1, 2, 840, 113549, 1, 12, 10, 1, 1], KeyBag, (some .same)⟩,
   ⟨.BAG_TYPE, .oid [1, 2, 840, 113549, 1, 12, 10, 1, 2], PKCS8ShroudedKeyBag, (some .same)⟩,
   ⟨.BAG_TYPE, .oid [1, 2, 840, 113549, 1, 12, 10, 1, 3], CertBag, (some .same)⟩,
   ⟨.BAG_TYPE, .oid [1, 2, 840, 113549, 1, 12, 10, 1, 4], CRLBag, (some .same)⟩,
   ⟨.BAG_TYPE, .oid [1, 2, 840, 113549, 1, 12, 10, 1, 5], SecretBag, (some .same)⟩,
   ⟨.BAG_TYPE, .oid [1, 2, 840, 113549, 1, 12, 10, 1, 6], SafeContents, (some (.refused [48, 0]))⟩,
   ⟨.ALGORITHM, .oid [1, 2, 840, 113549, 1, 12, 1, 1], Pkcs_12PbeParams, (some .same)⟩,
   ⟨.ALGORITHM, .oid [1, 2, 840, 113549, 1, 12, 1, 2], Pkcs_12PbeParams, (some .same)⟩,
   ⟨.ALGORITHM, .oid [1, 2, 840, 113549, 1, 12, 1, 3], Pkcs_12PbeParams, (some .same)⟩,
   ⟨.ALGORITHM, .oid [1, 2, 840, 113549, 1, 12, 1, 4], Pkcs_12PbeParams, (some .same)⟩,
   ⟨.ALGORITHM, .oid [1, 2, 840, 113549, 1, 12, 1, 5], Pkcs_12PbeParams, (some .same)⟩,
   ⟨.ALGORITHM, .oid [1, 2, 840, 113549, 1, 12, 1, 6], Pkcs_12PbeParams, (some .same)⟩,
   ⟨.CERT_BAG, .oid [1, 2, 840, 113549, 1, 9, 22, 1], OCTET_STRING, (some .same)⟩,
   ⟨.CERT_BAG, .oid [1, 2, 840, 113549, 1, 9, 22, 2], IA5String, (some .same)⟩,
   ⟨.CRL_BAG, .oid [1, 2, 840, 113549, 1, 9, 23, 1], OCTET_STRING, (some .same)⟩,
   ⟨.CMS_ATTRIBUTE, .oid [1, 2, 840, 113549, 1, 9, 20], (constrained (SIZE 1 255) BMPString), (some .same)⟩,
   ⟨.CMS_ATTRIBUTE, .oid [1, 2, 840, 113549, 1, 9, 21], OCTET_STRING, (some .same)⟩]

def unlisted : List (ObjClass × Val) :=
  []

def registered : Objects := ⟨Verif.Rfc7292.asModule, objects, unlisted⟩

end Rfc7292
end Std
end Verif
