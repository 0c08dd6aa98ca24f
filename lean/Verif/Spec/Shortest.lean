import Verif.Spec.Ber

/-!
# How long an encoding is: specification

`Ber.reads` with the contents octets of simple values left open, so that they can be restricted.
-/

namespace Verif
namespace Ber

open Asn1 Der

mutual
/-- As `reads`; the contents octets of simple values are those that `C` allows. -/
def readsBy (C : Prim → Val → Octets → Prop) (lax : Bool) : Ty → Val → Octets → Prop
  | .prim .any a, v, b => ∃ c n k contents, Element c n k contents b ∧ match a.tags with
      | [t] => (c = t.cls ∧ n = t.num ∧ v = .octets contents) ∨ (lax = true ∧ ¬ (c = t.cls ∧ n = t.num) ∧ v = .octets b)
      | _ => v = .octets b
  | .prim k a, v, b => (∃ c, C k v c ∧ Tagged false a.tags c b) ∧ a.spec.ok (.simple v) = true
  | .seq isSet a cs, .record vs, b => (∃ es, Tagged true a.tags es.flatten b ∧
      (if isSet then ∃ hs, each2 (fun h e => alternativeBy C lax cs h.1 h.2 e) hs es ∧ settled cs vs hs
        else componentsBy C lax cs vs es)) ∧
      (closed cs = true → a.spec.ok (.mapping (present cs vs).length (present cs vs)) = true)
  | .of _ a t, .list vs, b => ∃ es, Tagged true a.tags es.flatten b ∧ each2 (readsBy C lax t) vs.toList es
  | .choice a cs, .alt i v, b =>
      if a.tags = [] then alternativeBy C lax cs i v b
      else ∃ k c junk, alternativeBy C lax cs i v c ∧ Tagged k a.tags (c ++ junk) b
  | _, _, _ => False
/-- As `components`. -/
def componentsBy (C : Prim → Val → Octets → Prop) (lax : Bool) : Comps → Vals → List Octets → Prop
  | .nil, .nil, es => es = []
  | .cons f t cs, .cons v vs, es =>
    (∃ e es', es = e :: es' ∧ readsBy C lax t v e ∧ componentsBy C lax cs vs es') ∨
    (componentsBy C lax cs vs es ∧ match f.mode with
      | .req => False
      | .opt => v = .absent
      | .dflt d => v = d)
  | _, _, _ => False
/-- As `alternative`. -/
def alternativeBy (C : Prim → Val → Octets → Prop) (lax : Bool) : Comps → Nat → Val → Octets → Prop
  | .cons _ t _, 0, v, b => readsBy C lax t v b
  | .cons _ _ cs, i + 1, v, b => alternativeBy C lax cs i v b
  | .nil, _, _, _ => False
end

/-- X.690 8.3.1: the contents octets of an INTEGER or ENUMERATED are one or more octets; and the number is none of
those for which pyasn1 writes one octet too many. -/
def ordinary (k : Prim) (v : Val) (c : Octets) : Prop :=
  Contents k v c ∧ match k, v with
    | .integer, .int i => c ≠ [] ∧ notEdge i
    | .enumerated, .int i => c ≠ [] ∧ notEdge i
    | _, _ => True

end Ber
end Verif
