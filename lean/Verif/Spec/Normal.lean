import Verif.Spec.Asn1

/-!
# Reading and writing again

What must be known about a value that was read before it is written: the octets taken by every untagged ANY are one element
of definite length.  Both decoders see to this; what `Verif/Asn1/BerCodec.lean` leaves out is exactly the BER decoder taking
an element of indefinite length for an ANY.
-/

namespace Verif
namespace Asn1

mutual
def Ty.single : Ty → Val → Bool
  | .prim .any a, .octets b => !a.tags.isEmpty || oneElement b
  | .seq _ _ cs, .record vs => cs.single vs
  | .of _ _ t, .list vs => vs.every t.single
  | .choice _ cs, .alt i v => cs.singleAlt i v
  | _, _ => true
def Comps.single : Comps → Vals → Bool
  | .cons f t cs, .cons v vs => (decide (f.mode = .dflt v) || t.single v) && cs.single vs
  | _, _ => true
def Comps.singleAlt : Comps → Nat → Val → Bool
  | .cons _ t _, 0, v => t.single v
  | .cons _ _ cs, i + 1, v => cs.singleAlt i v
  | .nil, _, _ => true
end

end Asn1
end Verif
