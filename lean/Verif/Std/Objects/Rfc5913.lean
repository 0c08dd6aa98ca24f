import Verif.Asn1.Objects
import Verif.Std.Rfc5913

/-! The objects of rfc5913 (generated by tools/objgen.py from tools/std/objects.txt). -/

set_option maxRecDepth 100000

namespace Verif
namespace Std
namespace Rfc5913

open Asn1 Spec.X680

def objects : List Object :=
  [⟨.EXTENSION, .oid [1, 3, 6, 1, 5, 5, 7, 1, 21], AuthorityClearanceConstraints, (some (.rewritten (.list (Vals.cons (.record (Vals.cons (.oid [1, 3]) (Vals.cons (.bits [false, true]) (Vals.cons (.list (Vals.cons (.record (Vals.cons (.oid [1, 3]) (Vals.cons (.octets [5, 0]) (Vals.nil)))) (Vals.nil))) (Vals.nil))))) (Vals.nil)))))⟩]

def unlisted : List (ObjClass × Val) :=
  []

def registered : Objects := ⟨Verif.Rfc5913.asModule, objects, unlisted⟩

end Rfc5913
end Std
end Verif
