import Verif.Spec.Asn1
import Verif.Spec.Ber

/-!
# When a value meets a constraint

X.680, clause 51, for the constraints pyasn1 has: stated with quantifiers, apart from the function
the model uses to evaluate a constraint.
-/

namespace Verif
namespace Spec

open Asn1

/-- Not below the lower bound; `MAX` as a lower bound is met by nothing. -/
def above : Bound → Int → Prop
  | .fin a, i => a ≤ i
  | .inf, _ => False

/-- Not above the upper bound; `MAX` is no bound. -/
def below : Bound → Int → Prop
  | .fin a, i => i ≤ a
  | .inf, _ => True

/-- The subject has `n` parts: bits, octets, characters, arcs, components or elements. -/
inductive HasSize : Subject → Nat → Prop where
  | bits (bs : List Bool) : HasSize (.simple (.bits bs)) bs.length
  | octets (b : List UInt8) : HasSize (.simple (.octets b)) b.length
  | chars (s : List Char) : HasSize (.simple (.str s)) s.length
  | arcs (a : List Nat) : HasSize (.simple (.oid a)) a.length
  | null : HasSize (.simple .null) 0
  | parts (n : Nat) (names : List String) : HasSize (.mapping n names) n

mutual
/-- The subject meets the constraint.  Constraints without operands admit everything. -/
def Meets : Constraint → Subject → Prop
  | .inter cs, s => MeetsAll cs s
  | .union cs, s => cs = .nil ∨ MeetsSome cs s
  | .size lo hi, s => ∃ n : Nat, HasSize s n ∧ above lo n ∧ below hi n
  | .range lo hi, s => ∃ i, s = .simple (.int i) ∧ above lo i ∧ below hi i
  | .single vs, s => vs = [] ∨ ∃ v ∈ vs, s = .simple v
  | .alphabet cs, s => cs = [] ∨ (∃ t, s = .simple (.str t) ∧ ∀ c ∈ t, c ∈ cs) ∨ s = .simple (.octets []) ∨ ∃ ns, s = .mapping 0 ns
  | .withComps ps, s => ps = [] ∨ ∃ n names, s = .mapping n names ∧ ∀ p ∈ ps, p.1 ∈ names ↔ p.2 = true
  | .invalid, _ => False
def MeetsAll : Constraints → Subject → Prop
  | .nil, _ => True
  | .cons c cs, s => Meets c s ∧ MeetsAll cs s
def MeetsSome : Constraints → Subject → Prop
  | .nil, _ => False
  | .cons c cs, s => Meets c s ∨ MeetsSome cs s
end

mutual
/-- What can be relied on in a decoded value: its shape, the mandatory components, and that every
primitive value in it meets the constraint of its type, as does every SEQUENCE and SET without open types. -/
def Obeys : Ty → Val → Prop
  | .prim .any _, v => ∃ b, v = .octets b
  | .prim k a, v => primShape k v = true ∧ Meets a.spec (.simple v)
  | .seq _ a cs, v => ∃ vs, v = .record vs ∧ ObeysEach cs vs ∧
      (Ber.closed cs = true → Meets a.spec (.mapping (Ber.present cs vs).length (Ber.present cs vs)))
  | .of _ _ t, v => ∃ vs : List Val, v = .list (Vals.ofList vs) ∧ ∀ w ∈ vs, Obeys t w
  | .choice _ cs, v => ∃ i w, v = .alt i w ∧ ObeysChosen cs i w
  | .bad _, _ => False
def ObeysEach : Comps → Vals → Prop
  | .nil, vs => vs = .nil
  | .cons f t cs, vs => ∃ w ws, vs = .cons w ws ∧ ObeysEach cs ws ∧
      (Obeys t w ∨ (f.mode = .opt ∧ w = .absent) ∨ f.mode = .dflt w)
def ObeysChosen : Comps → Nat → Val → Prop
  | .nil, _, _ => False
  | .cons _ t _, 0, v => Obeys t v
  | .cons _ _ cs, i + 1, v => ObeysChosen cs i v
end

/-- What the constraint of a type is about in a value of it. -/
def subject : Ty → Val → Subject
  | .seq _ _ cs, .record vs => .mapping (Ber.present cs vs).length (Ber.present cs vs)
  | .of _ _ _, .list vs => .mapping vs.toList.length []
  | _, v => .simple v

end Spec
end Verif
