import Verif.Asn1.Objects
import Verif.Std.Rfc6664

/-! The objects of rfc6664 (generated by tools/objgen.py from tools/std/objects.txt). -/

set_option maxRecDepth 100000

namespace Verif
namespace Std
namespace Rfc6664

open Asn1 Spec.X680

def objects : List Object :=
  [⟨.SMIME_CAPS, .oid [1, 2, 840, 113549, 1, 1, 1], RSAKeyCapabilities, (some .same)⟩,
   ⟨.SMIME_CAPS, .oid [1, 2, 840, 10040, 4, 1], Verif.Rfc6664.DSAKeyCapabilities.call.ty, (some .same)⟩,
   ⟨.SMIME_CAPS, .oid [1, 2, 840, 10045, 2, 1], EC_SMimeCaps, (some .same)⟩,
   ⟨.SMIME_CAPS, .oid [1, 3, 132, 1, 12], EC_SMimeCaps, (some .same)⟩,
   ⟨.SMIME_CAPS, .oid [1, 3, 132, 1, 13], EC_SMimeCaps, (some .same)⟩,
   ⟨.SMIME_CAPS, .oid [1, 2, 840, 113549, 1, 1, 8], Std.Rfc5280.AlgorithmIdentifier, (some .same)⟩]

def unlisted : List (ObjClass × Val) :=
  [(.SMIME_CAPS, .oid [1, 2, 840, 113549, 1, 1, 10]),
   (.SMIME_CAPS, .oid [1, 2, 840, 113549, 1, 1, 7]),
   (.SMIME_CAPS, .oid [1, 2, 840, 10046, 2, 1])]

def registered : Objects := ⟨Verif.Rfc6664.asModule, objects, unlisted⟩

end Rfc6664
end Std
end Verif
