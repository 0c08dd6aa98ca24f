import Verif.Spec.Asn1
import Verif.Asn1.RtLemmas

/-!
# Which types have values

`Ty.sample` looks for a legal value of a type; `Ty.hopeless` recognises types
that have none.
-/

namespace Verif
namespace Asn1

/-- Numbers mentioned by a bound. -/
def Bound.ints : Bound → List Int
  | .fin i => [i]
  | .inf => []
mutual
/-- Numbers mentioned by a constraint. -/
def Constraint.ints : Constraint → List Int
  | .inter cs => cs.ints
  | .union cs => cs.ints
  | .range lo hi => lo.ints ++ hi.ints
  | .single vs => vs.filterMap (fun v => match v with | .int i => some i | _ => none)
  | _ => []
def Constraints.ints : Constraints → List Int
  | .nil => []
  | .cons c cs => c.ints ++ cs.ints
end
mutual
/-- Values listed by a constraint. -/
def Constraint.vals : Constraint → List Val
  | .inter cs => cs.vals
  | .union cs => cs.vals
  | .single vs => vs
  | _ => []
def Constraints.vals : Constraints → List Val
  | .nil => []
  | .cons c cs => c.vals ++ cs.vals
end
mutual
/-- A letter of each permitted alphabet. -/
def Constraint.letters : Constraint → List Char
  | .inter cs => cs.letters
  | .union cs => cs.letters
  | .alphabet (c :: _) => [c]
  | _ => []
def Constraints.letters : Constraints → List Char
  | .nil => []
  | .cons c cs => c.letters ++ cs.letters
end
mutual
/-- Least sizes mentioned by a constraint. -/
def Constraint.sizes : Constraint → List Int
  | .inter cs => cs.sizes
  | .union cs => cs.sizes
  | .size lo _ => lo.ints
  | _ => []
def Constraints.sizes : Constraints → List Int
  | .nil => []
  | .cons c cs => c.sizes ++ cs.sizes
end
/-- Lengths to try. -/
def lens (c : Constraint) : List Nat := 0 :: 1 :: c.sizes.map Int.toNat

/-- Primitive values to try. -/
def primSamples (k : Prim) (c : Constraint) : List Val :=
  match k with
  | .boolean => [.int 0, .int 1]
  | .integer | .enumerated => (0 :: 1 :: c.ints).map .int
  | .bitString => (lens c).map (fun n => .bits (List.replicate n false)) ++ c.vals
  | .octetString => (lens c).map (fun n => .octets (List.replicate n 0)) ++ c.vals
  | .null => [.null]
  | .oid => [.oid [1, 3]] ++ c.vals
  | .any => [.octets [5, 0]]
  | .str _ => (lens c).flatMap (fun n => (c.letters ++ ['0']).map (fun x => .str (List.replicate n x))) ++ c.vals
  | .utcTime => [.str "700101000000Z".toList]
  | .generalizedTime => [.str "19700101000000Z".toList]
/-- Component `i` from the second elements, the others from the first. -/
def pick (vs : List (Val × Val)) (i : Nat) : Nat → List Val
  | 0 => []
  | n + 1 => pick vs i n ++ (match vs[n]? with
    | some p => [if i = n then p.2 else p.1]
    | none => [])

mutual
/-- A legal value of the type, if one is found. -/
def Ty.sample : Ty → Option Val
  | .prim k a => (primSamples k a.spec).find? (Ty.prim k a).valid
  | .seq s a cs =>
    match cs.samples with
    | none => none
    | some vs => ((vs.map Prod.fst :: vs.map Prod.snd :: (List.range vs.length).map (fun i => pick vs i vs.length)).map
        (fun l => .record (Vals.ofList l))).find? (Ty.seq s a cs).valid
  | .of s a t => match t.sample with
    | none => none
    | some v => ((lens a.spec).map (fun n => .list (Vals.ofList (List.replicate n v)))).find? (Ty.of s a t).valid
  | .choice _ cs => cs.sampleAlt 0
  | .bad _ => none
/-- For each component the least and the fullest value. -/
def Comps.samples : Comps → Option (List (Val × Val))
  | .nil => some []
  | .cons f t cs => match cs.samples with
    | none => none
    | some vs => match f.mode, t.sample with
      | .req, none => none
      | .req, some v => some ((v, v) :: vs)
      | .opt, o => some ((.absent, o.getD .absent) :: vs)
      | .dflt d, o => some ((d, o.getD d) :: vs)
def Comps.sampleAlt : Comps → Nat → Option Val
  | .nil, _ => none
  | .cons _ t cs, i => match t.sample with
    | some v => some (.alt i v)
    | none => cs.sampleAlt (i + 1)
end

/-! ## Types without values -/

mutual
/-- No integer meets the constraint. -/
def Constraint.noInt : Constraint → Bool
  | .inter cs => cs.anyNoInt
  | .size _ _ => true
  | _ => false
def Constraints.anyNoInt : Constraints → Bool
  | .nil => false
  | .cons c cs => c.noInt || cs.anyNoInt
end

mutual
/-- The type has no legal value. -/
def Ty.hopeless : Ty → Bool
  | .prim k a => k == .integer && a.spec.noInt
  | .seq _ _ cs => cs.hopeless
  | .of _ a t => t.hopeless && !a.spec.ok (.mapping 0 [])
  | .choice _ cs => cs.allHopeless
  | .bad _ => true
def Comps.hopeless : Comps → Bool
  | .nil => false
  | .cons f t cs => (f.mode.isReq && t.hopeless) || cs.hopeless
def Comps.allHopeless : Comps → Bool
  | .nil => true
  | .cons _ t cs => t.hopeless && cs.allHopeless
end

mutual
theorem Constraint.noInt_ok (i : Int) : ∀ c : Constraint, c.noInt = true → c.ok (.simple (.int i)) = false
  | .inter cs, h => by
    simp only [Constraint.noInt] at h
    simp only [Constraint.ok]
    exact Constraints.noInt_all i cs h
  | .size _ _, _ => rfl
  | .union _, h => by simp [Constraint.noInt] at h
  | .range _ _, h => by simp [Constraint.noInt] at h
  | .single _, h => by simp [Constraint.noInt] at h
  | .alphabet _, h => by simp [Constraint.noInt] at h
  | .withComps _, h => by simp [Constraint.noInt] at h
  | .invalid, h => by simp [Constraint.noInt] at h
theorem Constraints.noInt_all (i : Int) : ∀ cs : Constraints, cs.anyNoInt = true → cs.all (.simple (.int i)) = false
  | .nil, h => by simp [Constraints.anyNoInt] at h
  | .cons c cs, h => by
    simp only [Constraints.anyNoInt, Bool.or_eq_true] at h
    simp only [Constraints.all]
    rcases h with h | h
    · rw [Constraint.noInt_ok i c h]; rfl
    · rw [Constraints.noInt_all i cs h, Bool.and_false]
end

mutual
theorem Ty.hopeless_valid : ∀ (t : Ty) (v : Val), t.hopeless = true → t.valid v = false
  | .prim k a, v, h => by
    simp only [Ty.hopeless, Bool.and_eq_true, beq_iff_eq] at h
    obtain ⟨h1, h2⟩ := h
    subst h1
    cases v with
    | int i => simp [Ty.valid, Constraint.noInt_ok i a.spec h2]
    | _ => simp [Ty.valid, primLegal]
  | .seq _ a cs, v, h => by
    simp only [Ty.hopeless] at h
    cases v with
    | record vs => simp [Ty.valid, Comps.hopeless_valid cs vs h]
    | _ => simp [Ty.valid]
  | .of _ a t, v, h => by
    simp only [Ty.hopeless, Bool.and_eq_true, Bool.not_eq_true'] at h
    cases v with
    | list vs =>
      cases vs with
      | nil => simp [Ty.valid, Vals.every, Vals.length, h.2]
      | cons v vs => simp [Ty.valid, Vals.every, Ty.hopeless_valid t v h.1]
    | _ => simp [Ty.valid]
  | .choice _ cs, v, h => by
    simp only [Ty.hopeless] at h
    cases v with
    | alt i v => simp only [Ty.valid]; exact Comps.allHopeless_valid cs i v h
    | _ => simp [Ty.valid]
  | .bad _, v, _ => by simp [Ty.valid]
theorem Comps.hopeless_valid : ∀ (cs : Comps) (vs : Vals), cs.hopeless = true → cs.valid vs = false
  | .nil, _, h => by simp [Comps.hopeless] at h
  | .cons _ _ _, .nil, _ => by simp [Comps.valid]
  | .cons f t cs, .cons v vs, h => by
    simp only [Comps.hopeless, Bool.or_eq_true, Bool.and_eq_true] at h
    simp only [Comps.valid]
    rcases h with ⟨h1, h2⟩ | h
    · cases hm : f.mode <;> simp [hm, Mode.isReq] at h1
      simp [Ty.hopeless_valid t v h2]
    · rw [Comps.hopeless_valid cs vs h, Bool.and_false]
theorem Comps.allHopeless_valid : ∀ (cs : Comps) (i : Nat) (v : Val), cs.allHopeless = true → cs.validAlt i v = false
  | .nil, _, _, _ => rfl
  | .cons _ t cs, 0, v, h => by
    simp only [Comps.allHopeless, Bool.and_eq_true] at h
    simp only [Comps.validAlt]; exact Ty.hopeless_valid t v h.1
  | .cons _ t cs, i + 1, v, h => by
    simp only [Comps.allHopeless, Bool.and_eq_true] at h
    simp only [Comps.validAlt]; exact Comps.allHopeless_valid cs i v h.2
end

end Asn1
end Verif
