import Verif.Asn1.Open

/-!
# How large a decoded value is: specification

One unit for each object and for each empty slot of a SEQUENCE or SET, and one for each octet of
the contents: octets of a string, characters, octets needed for a number.  A CHOICE is not counted
apart from the alternative it holds, and an opened field not apart from its contents.
-/

namespace Verif
namespace Asn1

/-- Octets needed to write a number. -/
def octetsOf (n : Nat) : Nat := if n = 0 then 0 else n.log2 / 8 + 1

def arcsSize : List Nat → Nat
  | [] => 0
  | n :: ns => max 1 (octetsOf n) + arcsSize ns

mutual
/-- Size of a value. -/
def Val.size : Val → Nat
  | .absent => 1
  | .int i => 1 + octetsOf i.natAbs
  | .bits bs => 1 + (bs.length + 7) / 8
  | .octets b => 1 + b.length
  | .null => 1
  | .oid arcs => 1 + arcsSize arcs
  | .str s => 1 + s.length
  | .list vs => 1 + vs.size
  | .record vs => 1 + vs.size
  | .alt _ v => v.size
def Vals.size : Vals → Nat
  | .nil => 0
  | .cons v vs => v.size + vs.size
end

mutual
/-- Size of a value with opened fields. -/
def OVal.size : OVal → Nat
  | .leaf v => v.size
  | .record vs => 1 + vs.size
  | .list vs => 1 + vs.size
  | .alt _ v => v.size
  | .opened _ v => v.size
def OVals.size : OVals → Nat
  | .nil => 0
  | .cons v vs => v.size + vs.size
end

/-- What the components cost that the input does not have: their slots, and the defaults. -/
def Comps.blank : Comps → Nat
  | .nil => 0
  | .cons f _ cs => (match f.mode with
      | .req => 0
      | .opt => 1
      | .dflt v => v.size) + cs.blank

/-- A SEQUENCE or SET with all its slots and defaults costs at most `K` for each of its first two octets. -/
def Ty.within (K : Nat) : Ty → Bool
  | .seq _ _ cs => decide (1 + cs.blank ≤ 2 * K)
  | _ => true

mutual
/-- How deep a value is nested. -/
def Val.depth : Val → Nat
  | .list vs => 1 + vs.depth
  | .record vs => 1 + vs.depth
  | .alt _ v => 1 + v.depth
  | _ => 1
def Vals.depth : Vals → Nat
  | .nil => 0
  | .cons v vs => max v.depth vs.depth
end

mutual
/-- How deep a value with opened fields is nested. -/
def OVal.depth : OVal → Nat
  | .leaf v => v.depth
  | .record vs => 1 + vs.depth
  | .list vs => 1 + vs.depth
  | .alt _ v => 1 + v.depth
  | .opened _ v => v.depth
def OVals.depth : OVals → Nat
  | .nil => 0
  | .cons v vs => max v.depth vs.depth
end

mutual
/-- How deep values of a type are nested, defaults included. -/
def Ty.depth : Ty → Nat
  | .seq _ _ cs => 1 + cs.depth
  | .of _ _ t => 1 + t.depth
  | .choice _ cs => 1 + cs.depth
  | _ => 1
def Comps.depth : Comps → Nat
  | .nil => 0
  | .cons f t cs => max (match f.mode with
      | .dflt v => max v.depth t.depth
      | _ => max 1 t.depth) cs.depth
end

end Asn1
end Verif
