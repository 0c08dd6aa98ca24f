import Verif.Asn1.Codec

/-!
# What a legal value is, and when two values are the same

Stated on types and values only, without the encoder or the decoder (except
that the octets given to an untagged ANY must be one element, for which the
element reader `readTLV` is used).
-/

namespace Verif
namespace Asn1

/-- The characters a string type can carry. -/
def inRepertoire : CharKind → Char → Bool
  | .ascii, c => c.toNat < 128
  | .latin1, c => c.toNat < 256
  | _, _ => true

/-- If there is a fraction, it is one that pyasn1 writes as it is: something follows the `.`, and there is no `0` among
the first four characters of it. -/
def plainFraction (s : List Char) : Bool :=
  match s.dropWhile (· != '.') with
  | [] => true
  | _ :: f => !f.contains '.' && !(f.take 4).contains '0' && f.head? != some 'Z'

/-- UTC, between `lo` and `hi` characters, without a fraction or with one that is written as it is. -/
def legalTime (lo hi : Nat) (s : List Char) : Bool :=
  lo ≤ s.length && s.length ≤ hi && s.getLast? == some 'Z' &&
  s.all (fun c => c.toNat < 128 && !['+', '-', ','].contains c) && plainFraction s

/-- Legal values of the primitive types. -/
def primLegal : Prim → Val → Bool
  | .boolean, .int i => i == 0 || i == 1
  | .integer, .int _ => true
  | .enumerated, .int _ => true
  | .bitString, .bits _ => true
  | .octetString, .octets _ => true
  | .null, .null => true
  | .oid, .oid (x :: y :: _) => x ≤ 2 && (x == 2 || y < 40)
  | .any, .octets _ => true
  | .str k, .str s => s.all (inRepertoire k)
  | .utcTime, .str s => legalTime 11 13 s
  | .generalizedTime, .str s => legalTime 13 19 s
  | _, _ => false

/-- The octets are exactly one element. -/
def oneElement (b : Bytes) : Bool :=
  match readTLV b with
  | some (_, []) => true
  | _ => false

def Vals.every (p : Val → Bool) : Vals → Bool
  | .nil => true
  | .cons v vs => p v && vs.every p

mutual
/-- The value is a legal value of the type: right shape, every constraint met. -/
def Ty.valid : Ty → Val → Bool
  | .prim k a, v => primLegal k v && a.spec.ok (.simple v) &&
      (match k, a.tags, v with
       | .any, [], .octets b => oneElement b
       | _, _, _ => true)
  | .seq _ a cs, .record vs => cs.valid vs && a.spec.ok (.mapping (presentNames cs vs).length (presentNames cs vs))
  | .of _ a t, .list vs => vs.every t.valid && a.spec.ok (.mapping vs.length [])
  | .choice _ cs, .alt i v => cs.validAlt i v
  | _, _ => false
/-- Component by component; only OPTIONAL ones may be absent. -/
def Comps.valid : Comps → Vals → Bool
  | .nil, .nil => true
  | .cons f t cs, .cons v vs =>
    (match f.mode with
     | .req => t.valid v
     | .opt => v == .absent || t.valid v
     | .dflt d => v == d || t.valid v) && cs.valid vs
  | _, _ => false
def Comps.validAlt : Comps → Nat → Val → Bool
  | .cons _ t _, 0, v => t.valid v
  | .cons _ _ cs, i + 1, v => cs.validAlt i v
  | .nil, _, _ => false
end

mutual
/-- The value is an empty collection through and through: encoded inside an
OPTIONAL component it leaves no octets. -/
def Ty.vanish : Ty → Val → Bool
  | .seq _ _ cs, .record vs => cs.vanish vs
  | .of _ _ t, .list vs => vs.every t.vanish
  | .choice _ cs, .alt i v => cs.vanishAlt i v
  | _, _ => false
def Comps.vanish : Comps → Vals → Bool
  | .nil, .nil => true
  | .cons f t cs, .cons v vs =>
    (match f.mode with
     | .req => false
     | .opt => v == .absent || t.vanish v
     | .dflt d => v == d || v == .absent) && cs.vanish vs
  | _, _ => false
def Comps.vanishAlt : Comps → Nat → Val → Bool
  | .cons _ t _, 0, v => t.vanish v
  | .cons _ _ cs, i + 1, v => cs.vanishAlt i v
  | .nil, _, _ => false
end

/-- Two lists of the same length whose elements are related one by one. -/
def all2 {α β : Type} (p : α → β → Prop) : List α → List β → Prop
  | [], [] => True
  | a :: as, b :: bs => p a b ∧ all2 p as bs
  | _, _ => False

mutual
/-- `w` carries the same abstract value as `v`: equal, except that the elements
of a SET OF may be reordered and that empty collections inside an OPTIONAL
component (`ine = true`) may have disappeared. -/
def Ty.same (ine : Bool) : Ty → Val → Val → Prop
  | .prim _ _, v, w => v = w
  | .seq _ _ cs, .record vs, .record ws => cs.same vs ws
  | .of isSet _ t, .list vs, .list ws =>
    ∃ us : List Val, (if isSet then us.Perm vs.toList else us = vs.toList) ∧
      all2 (t.same ine) (us.filter (fun u => !(ine && t.vanish u))) ws.toList
  | .choice _ cs, .alt i v, .alt j w => i = j ∧ cs.sameAlt ine i v w
  | _, _, _ => False
def Comps.same : Comps → Vals → Vals → Prop
  | .nil, .nil, .nil => True
  | .cons f t cs, .cons v vs, .cons w ws =>
    (match f.mode with
     | .req => t.same false v w
     | .opt => (v = .absent ∧ w = .absent) ∨ (t.vanish v = true ∧ w = .absent) ∨ (t.vanish v = false ∧ t.same true v w)
     | .dflt d => (v = d ∧ w = d) ∨ (v ≠ d ∧ t.same false v w)) ∧ cs.same vs ws
  | _, _, _ => False
def Comps.sameAlt (ine : Bool) : Comps → Nat → Val → Val → Prop
  | .cons _ t _, 0, v, w => t.same ine v w
  | .cons _ _ cs, i + 1, v, w => cs.sameAlt ine i v w
  | .nil, _, _, _ => False
end

/-! ## Values as users build them -/

/-- Component `i` of a record. -/
def Vals.get? : Vals → Nat → Option Val
  | .nil, _ => none
  | .cons v _, 0 => some v
  | .cons _ vs, n + 1 => vs.get? n

/-- Replace component `i`. -/
def Vals.set : Vals → Nat → Val → Vals
  | .nil, _, _ => .nil
  | .cons _ vs, 0, w => .cons w vs
  | .cons v vs, n + 1, w => .cons v (vs.set n w)

mutual
/-- Nothing in the value is reordered or dropped by encoding: every SET OF in it has at most one
element and no OPTIONAL component holds an empty collection. -/
def Ty.plain (ine : Bool) : Ty → Val → Bool
  | .seq _ _ cs, .record vs => cs.plain vs
  | .of isSet _ t, .list vs => vs.every (fun v => t.plain ine v && !(ine && t.vanish v)) && (!isSet || vs.length ≤ 1)
  | .choice _ cs, .alt i v => cs.plainAlt ine i v
  | _, _ => true
def Comps.plain : Comps → Vals → Bool
  | .cons f t cs, .cons v vs =>
    (match f.mode with
     | .req => t.plain false v
     | .opt => !t.vanish v && t.plain true v
     | .dflt d => v == d || t.plain false v) && cs.plain vs
  | _, _ => true
def Comps.plainAlt (ine : Bool) : Comps → Nat → Val → Bool
  | .cons _ t _, 0, v => t.plain ine v
  | .cons _ _ cs, i + 1, v => cs.plainAlt ine i v
  | .nil, _, _ => true
end

mutual
/-- The type and all types it is built from. -/
def Ty.nodes : Ty → List Ty
  | .prim k a => [.prim k a]
  | .seq s a cs => .seq s a cs :: cs.nodes
  | .of s a t => .of s a t :: t.nodes
  | .choice a cs => .choice a cs :: cs.nodes
  | .bad w => [.bad w]
def Comps.nodes : Comps → List Ty
  | .nil => []
  | .cons _ t cs => t.nodes ++ cs.nodes
end

mutual
/-- `p` holds of the type and of all types it is built from. -/
def Ty.each (p : Ty → Bool) : Ty → Bool
  | .prim k a => p (.prim k a)
  | .seq s a cs => p (.seq s a cs) && cs.each p
  | .of s a t => p (.of s a t) && t.each p
  | .choice a cs => p (.choice a cs) && cs.each p
  | .bad w => p (.bad w)
def Comps.each (p : Ty → Bool) : Comps → Bool
  | .nil => true
  | .cons _ t cs => t.each p && cs.each p
end

mutual
theorem Ty.each_nodes (p : Ty → Bool) : ∀ t : Ty, t.each p = t.nodes.all p
  | .prim _ _ => by simp [Ty.each, Ty.nodes]
  | .seq _ _ cs => by simp [Ty.each, Ty.nodes, Comps.each_nodes p cs]
  | .of _ _ t => by simp [Ty.each, Ty.nodes, Ty.each_nodes p t]
  | .choice _ cs => by simp [Ty.each, Ty.nodes, Comps.each_nodes p cs]
  | .bad _ => by simp [Ty.each, Ty.nodes]
theorem Comps.each_nodes (p : Ty → Bool) : ∀ cs : Comps, cs.each p = cs.nodes.all p
  | .nil => by simp [Comps.each, Comps.nodes]
  | .cons _ t cs => by simp [Comps.each, Comps.nodes, Ty.each_nodes p t, Comps.each_nodes p cs]
end

/-! ## What every decoded value satisfies -/

/-- The value is of the right kind for the primitive type.  (`primLegal` without the format of times.) -/
def primShape : Prim → Val → Bool
  | .utcTime, .str s => s.all (inRepertoire .ascii)
  | .generalizedTime, .str s => s.all (inRepertoire .ascii)
  | .utcTime, _ => false
  | .generalizedTime, _ => false
  | k, v => primLegal k v

mutual
/-- Right shape, mandatory components present, every constraint on a primitive
value met, and constraints on SEQUENCE/SET met where no component is an open
type.  (`valid` also asks for the size of collections and the format of times,
which the decoder does not check.) -/
def Ty.admits : Ty → Val → Bool
  | .prim .any _, .octets _ => true
  | .prim .any _, _ => false
  | .prim k a, v => primShape k v && a.spec.ok (.simple v)
  | .seq _ a cs, .record vs => cs.admits vs &&
      (!cs.noOpen || a.spec.ok (.mapping (presentNames cs vs).length (presentNames cs vs)))
  | .of _ _ t, .list vs => vs.every t.admits
  | .choice _ cs, .alt i v => cs.admitsAlt i v
  | _, _ => false
def Comps.admits : Comps → Vals → Bool
  | .nil, .nil => true
  | .cons f t cs, .cons v vs =>
    (match f.mode with
     | .req => t.admits v
     | .opt => v == .absent || t.admits v
     | .dflt d => v == d || t.admits v) && cs.admits vs
  | _, _ => false
def Comps.admitsAlt : Comps → Nat → Val → Bool
  | .cons _ t _, 0, v => t.admits v
  | .cons _ _ cs, i + 1, v => cs.admitsAlt i v
  | .nil, _, _ => false
end

/-! ## How big a value is -/

/-- Number of octets that certainly suffice for the contents of a primitive value. -/
def Val.bulk : Val → Nat
  | .int i => bitLen i.natAbs / 8 + 1
  | .bits bs => bs.length + 1
  | .octets b => b.length
  | .oid a => (a.map (fun n => bitLen n + 2)).sum
  | .str s => 4 * s.length
  | _ => 0

/-- Octets that certainly suffice for the tags of a tag set and their lengths. -/
def overhead (ts : TagSet) : Nat := (ts.map (fun t => t.num + 2 + 127)).sum

def Vals.total (p : Val → Nat) : Vals → Nat
  | .nil => 0
  | .cons v vs => p v + vs.total p

mutual
/-- An upper bound of the size of the encoding, computed from the value alone. -/
def Ty.weight : Ty → Val → Nat
  | .prim _ a, v => v.bulk + overhead a.tags
  | .seq _ a cs, .record vs => cs.weight vs + overhead a.tags
  | .of _ a t, .list vs => vs.total t.weight + overhead a.tags
  | .choice a cs, .alt i v => cs.weightAlt i v + overhead a.tags
  | _, _ => 0
def Comps.weight : Comps → Vals → Nat
  | .cons _ t cs, .cons v vs => t.weight v + cs.weight vs
  | _, _ => 0
def Comps.weightAlt : Comps → Nat → Val → Nat
  | .cons _ t _, 0, v => t.weight v
  | .cons _ _ cs, i + 1, v => cs.weightAlt i v
  | .nil, _, _ => 0
end

end Asn1
end Verif
