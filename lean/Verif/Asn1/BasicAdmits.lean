import Verif.Asn1.BasicRead
import Verif.Asn1.Sound

/-! # What the BER decoder returns meets the constraints -/

namespace Verif
namespace Asn1

theorem bdecPrim_shape (k : Prim) (b : Bytes) (v : Val) (h : bdecPrim k b = some v) : primShape k v = true := by
  by_cases hk : k = .boolean
  · subst hk
    simp only [bdecPrim, Option.some.injEq] at h
    subst h
    split <;> rfl
  · rw [bdecPrim_plain k b hk] at h
    exact decPrim_shape k b v h

theorem joined_shape (k : Prim) (ind : Bool) (xs : List Elt) (v : Val) (h : joined k ind xs = some v) : primShape k v = true := by
  cases k <;> simp only [joined] at h <;> try (cases h; done)
  · split at h
    · simp only [Option.map_eq_some_iff] at h
      obtain ⟨ps, _, rfl⟩ := h
      rfl
    · cases h
  · split at h
    · cases h; rfl
    · cases h

mutual
theorem bdecT_admits : ∀ (t : Ty) (x : Elt) (v : Val), bdecT t x = some v → t.admits v = true
  | .prim k a, x, v, h => by
    simp only [bdecT, bdecPrimT] at h
    by_cases hk : k = .any
    · subst hk
      simp only [beq_self_eq_true, if_true] at h
      split at h
      · cases h
      · exact decT_admits (.prim .any a) x.tlv v (by simpa [decT] using h)
    · have hkb : (k == Prim.any) = false := by simpa using hk
      simp only [hkb, Bool.false_eq_true, if_false] at h
      split at h
      · cases h
      · rename_i y _
        split at h
        · cases h
        · rename_i w hw
          split at h
          · rename_i hs
            simp only [Option.some.injEq] at h; subst h
            have hp : primShape k w = true := by
              split at hw
              · rw [Option.bind_eq_some_iff] at hw
                obtain ⟨xs, _, hj⟩ := hw
                exact joined_shape k _ xs w hj
              · exact bdecPrim_shape k _ w hw
            cases k <;> simp_all [Ty.admits]
          · cases h
  | .seq isSet a cs, x, v, h => by
    simp only [bdecT] at h
    split at h
    · simp at h
    · rename_i xs _
      split at h
      · simp at h
      · rename_i vs hvs
        split at h
        · rename_i hok
          simp only [Option.some.injEq] at h; subst h
          simp only [Ty.admits, Bool.and_eq_true]
          refine ⟨?_, hok⟩
          cases isSet with
          | false => simp at hvs; exact bdecComps_admits cs xs vs hvs
          | true =>
            simp only [if_true] at hvs
            split at hvs
            · exact bdecSet_admits cs xs vs hvs
            · simp at hvs
        · simp at h
  | .of isSet a t, x, v, h => by
    simp only [bdecT] at h
    split at h
    · simp at h
    · rename_i xs _
      split at h
      · simp at h
      · rename_i vs hvs
        simp only [Option.some.injEq] at h; subst h
        simp only [Ty.admits, Vals.every_iff, Vals.toList_ofList, List.all_eq_true]
        intro w hw
        rw [mapOpt_all2] at hvs
        have : ∀ (xs : List Elt) (vs : List Val), all2 (fun x v => bdecT t x = some v) xs vs → ∀ w ∈ vs, t.admits w = true := by
          intro xs
          induction xs with
          | nil => intro vs h w hw; cases vs with
            | nil => simp at hw
            | cons => exact h.elim
          | cons y xs ih => intro vs h w hw; cases vs with
            | nil => simp at hw
            | cons u vs =>
              rcases List.mem_cons.1 hw with rfl | hw
              · exact bdecT_admits t y _ h.1
              · exact ih vs h.2 w hw
        exact this xs vs hvs w hw
  | .choice a cs, x, v, h => by
    simp only [bdecT] at h
    have key : ∀ z, bdecAlt cs 0 z = some v → (Ty.choice a cs).admits v = true := by
      intro z hz
      obtain ⟨i, w, h1, h2⟩ := bdecAlt_admits cs 0 z v hz
      rw [h1, Nat.zero_add]; exact h2
    split at h
    · exact key x h
    · split at h
      · simp at h
      · split at h
        · simp at h
        · exact key _ h
  | .bad _, x, v, h => by simp [bdecT] at h
theorem bdecComps_admits : ∀ (cs : Comps) (xs : List Elt) (vs : Vals), bdecComps cs xs = some vs → cs.admits vs = true
  | .nil, [], vs, h => by simp [bdecComps] at h; subst h; rfl
  | .nil, _ :: _, vs, h => by simp [bdecComps] at h
  | .cons f t cs, [], vs, h => by
    simp only [bdecComps] at h
    split at h
    · rename_i v vs' h1 h2
      simp only [Option.some.injEq] at h; subst h
      simp only [Comps.admits, bdecComps_admits cs [] vs' h2, Bool.and_true]
      exact admits_missing h1
    · simp at h
  | .cons f t cs, x :: xs, vs, h => by
    simp only [bdecComps] at h
    split at h
    · split at h
      · rename_i v vs' h1 h2
        simp only [Option.some.injEq] at h; subst h
        simp only [Comps.admits, bdecComps_admits cs xs vs' h2, Bool.and_true]
        exact admits_present (bdecT_admits t x v h1)
      · simp at h
    · split at h
      · rename_i v vs' h1 h2
        simp only [Option.some.injEq] at h; subst h
        simp only [Comps.admits, bdecComps_admits cs (x :: xs) vs' h2, Bool.and_true]
        exact admits_missing h1
      · simp at h
theorem bdecSet_admits : ∀ (cs : Comps) (xs : List Elt) (vs : Vals), bdecSet cs xs = some vs → cs.admits vs = true
  | .nil, xs, vs, h => by simp [bdecSet] at h; subst h; rfl
  | .cons f t cs, xs, vs, h => by
    simp only [bdecSet] at h
    split at h
    · rename_i ws vs' h1 h2
      have ih := bdecSet_admits cs xs vs' h2
      split at h
      · rename_i w hw
        simp only [Option.some.injEq] at h; subst h
        simp only [Comps.admits, ih, Bool.and_true]
        apply admits_present
        rw [mapOpt_all2] at h1
        have : ∀ (xs : List Elt) (vs : List Val), all2 (fun x v => bdecT t x = some v) xs vs → ∀ w ∈ vs, t.admits w = true := by
          intro xs
          induction xs with
          | nil => intro vs h w hw; cases vs with
            | nil => simp at hw
            | cons => exact h.elim
          | cons y xs ih => intro vs h w hw; cases vs with
            | nil => simp at hw
            | cons u vs =>
              rcases List.mem_cons.1 hw with rfl | hw
              · exact bdecT_admits t y _ h.1
              · exact ih vs h.2 w hw
        exact this _ _ h1 w (List.mem_of_getLast? hw)
      · split at h
        · rename_i w hw
          simp only [Option.some.injEq] at h; subst h
          simp only [Comps.admits, ih, Bool.and_true]
          exact admits_missing hw
        · simp at h
    · simp at h
theorem bdecAlt_admits : ∀ (cs : Comps) (k : Nat) (x : Elt) (v : Val), bdecAlt cs k x = some v →
    ∃ i w, v = .alt (k + i) w ∧ cs.admitsAlt i w = true
  | .nil, k, x, v, h => by simp [bdecAlt] at h
  | .cons f t cs, k, x, v, h => by
    simp only [bdecAlt] at h
    split at h
    · split at h
      · rename_i w hw
        simp only [Option.some.injEq] at h
        exact ⟨0, w, h.symm, by simpa [Comps.admitsAlt] using bdecT_admits t x w hw⟩
      · simp at h
    · obtain ⟨i, w, h1, h2⟩ := bdecAlt_admits cs (k + 1) x v h
      exact ⟨i + 1, w, by rw [h1]; congr 1; omega, by simpa [Comps.admitsAlt] using h2⟩
end

/-- Whatever the octets and the type. -/
theorem berDecode_admits (t : Ty) (b r : Bytes) (v : Val) (h : berDecode t b = some (v, r)) : t.admits v = true := by
  unfold berDecode at h
  split at h
  · cases h
  · split at h
    · cases h
    · rename_i w hw
      simp only [Option.some.injEq, Prod.mk.injEq] at h
      rw [← h.1]
      exact bdecT_admits t _ w hw

end Asn1
end Verif
