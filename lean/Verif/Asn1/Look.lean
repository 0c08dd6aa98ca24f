import Verif.Spec.Look
import Verif.Asn1.RtLemmas

/-!
# Parts of a value whose SET OFs are in another order
-/

namespace Verif
namespace Asn1

open Spec

theorem Alike.refl (p : List Step) : Alike p p := rfl

theorem Alike.cons (s : Step) {p q : List Step} (h : Alike p q) : Alike (s :: p) (s :: q) := by
  simpa [Alike] using h

theorem Alike.append {p q p' q' : List Step} (h : Alike p q) (h' : Alike p' q') : Alike (p ++ p') (q ++ q') := by
  simp only [Alike, List.map_append] at *
  rw [h, h']

theorem Alike.field_inv {n : String} {q : List Step} (h : Alike q [.field n]) : q = [.field n] := by
  simp only [Alike, List.map_cons, List.map_nil, anyElement] at h
  rcases q with _ | ⟨s, q⟩
  · simp at h
  · simp only [List.map_cons, List.cons.injEq, List.map_eq_nil_iff] at h
    obtain ⟨h1, rfl⟩ := h
    cases s <;> simp [anyElement] at h1
    rw [h1]

mutual
theorem ends_alike : ∀ (t : Ty) (p q : List Step), Alike p q → ends p t = ends q t
  | .prim _ _, p, q, h => by
    rcases p with _ | ⟨s, p⟩ <;> rcases q with _ | ⟨s', q⟩ <;> simp [Alike] at h
    · rfl
    · cases s <;> cases s' <;> simp [ends]
  | .seq _ _ cs, p, q, h => by
    rcases p with _ | ⟨s, p⟩ <;> rcases q with _ | ⟨s', q⟩ <;> simp [Alike] at h
    · rfl
    · cases s <;> cases s' <;> simp [anyElement] at h <;> simp only [ends]
      rw [h.1]
      exact endsAll_alike cs _ p q h.2
  | .of _ _ t, p, q, h => by
    rcases p with _ | ⟨s, p⟩ <;> rcases q with _ | ⟨s', q⟩ <;> simp [Alike] at h
    · rfl
    · cases s <;> cases s' <;> simp [anyElement] at h <;> simp only [ends]
      exact ends_alike t p q h
  | .choice _ cs, p, q, h => by
    rcases p with _ | ⟨s, p⟩ <;> rcases q with _ | ⟨s', q⟩ <;> simp [Alike] at h
    · rfl
    · cases s <;> cases s' <;> simp [anyElement] at h <;> simp only [ends]
      rw [h.1]
      exact endsAll_alike cs _ p q h.2
  | .bad _, p, q, h => by
    rcases p with _ | ⟨s, p⟩ <;> rcases q with _ | ⟨s', q⟩ <;> simp [Alike] at h
    · rfl
    · cases s <;> cases s' <;> simp [ends]
theorem endsAll_alike : ∀ (cs : Comps) (n : String) (p q : List Step), Alike p q → endsAll n p cs = endsAll n q cs
  | .nil, _, _, _, _ => rfl
  | .cons f t cs, n, p, q, h => by simp only [endsAll]; rw [ends_alike t p q h, endsAll_alike cs n p q h]
end

theorem elementAt_eq : ∀ (vs : Vals) (i : Nat), elementAt vs i = vs.toList[i]?
  | .nil, i => by cases i <;> rfl
  | .cons v vs, 0 => rfl
  | .cons v vs, i + 1 => by simpa [elementAt, Vals.toList] using elementAt_eq vs i

/-- `q` in `w` and `q'` in `v` lead to parts `y` and `x` of the same type, equal but for the order of SET OFs. -/
def PartOf (t : Ty) (v w : Val) (q q' : List Step) : Prop :=
  ∃ u x y, (∀ r, ends (q ++ r) t = true → ends r u = true) ∧ (∀ r, look (q ++ r) t w = look r u y) ∧
    (∀ r, look (q' ++ r) t v = look r u x) ∧ (x = y ∨ u.reorder x y)

theorem endsAll_fieldAt {n : String} {p : List Step} : ∀ (cs : Comps) (vs : Vals) (u : Ty) (v : Val),
    fieldAt n cs vs = some (u, v) → endsAll n p cs = true → ends p u = true
  | .nil, vs, u, v, h, _ => by simp [fieldAt] at h
  | .cons f t cs, .nil, u, v, h, _ => by simp [fieldAt] at h
  | .cons f t cs, .cons w ws, u, v, h, he => by
    simp only [fieldAt] at h
    simp only [endsAll, Bool.and_eq_true, Bool.or_eq_true, bne_iff_ne] at he
    split at h
    · rename_i hn
      simp only [Option.some.injEq, Prod.mk.injEq] at h
      rw [← h.1]
      exact he.1.resolve_left (fun g => g hn)
    · exact endsAll_fieldAt cs ws u v h he.2

theorem endsAll_altAt {n : String} {p : List Step} : ∀ (cs : Comps) (i : Nat) (u : Ty), altAt n cs i = some u →
    endsAll n p cs = true → ends p u = true
  | .nil, i, u, h, _ => by simp [altAt] at h
  | .cons f t cs, 0, u, h, he => by
    simp only [altAt] at h
    simp only [endsAll, Bool.and_eq_true, Bool.or_eq_true, bne_iff_ne] at he
    split at h
    · rename_i hn
      cases h
      exact he.1.resolve_left (fun g => g hn)
    · simp at h
  | .cons f t cs, i + 1, u, h, he => by
    simp only [altAt] at h
    simp only [endsAll, Bool.and_eq_true] at he
    exact endsAll_altAt cs i u h he.2

theorem fieldAt_reorder {n : String} : ∀ (cs : Comps) (vs ws : Vals) (u : Ty) (y : Val), cs.reorder vs ws →
    fieldAt n cs ws = some (u, y) → ∃ x, fieldAt n cs vs = some (u, x) ∧ (x = y ∨ u.reorder x y)
  | .nil, _, _, u, y, _, h => by simp [fieldAt] at h
  | .cons f t cs, vs, .nil, u, y, _, h => by simp [fieldAt] at h
  | .cons f t cs, .nil, .cons w ws, u, y, hr, h => by simp [Comps.reorder] at hr
  | .cons f t cs, .cons v vs, .cons w ws, u, y, hr, h => by
    simp only [Comps.reorder] at hr
    simp only [fieldAt] at h ⊢
    split at h
    · rename_i hn
      simp only [Option.some.injEq, Prod.mk.injEq] at h
      obtain ⟨rfl, rfl⟩ := h
      refine ⟨v, by simp [hn], ?_⟩
      have h1 := hr.1
      split at h1
      · exact .inr h1
      · rcases h1 with ⟨a, b⟩ | ⟨_, b⟩
        · exact .inl (a.trans b.symm)
        · exact .inr b
      · rcases h1 with ⟨a, b⟩ | ⟨_, b⟩
        · exact .inl (a.trans b.symm)
        · exact .inr b
    · rename_i hn
      rw [if_neg hn]
      exact fieldAt_reorder cs vs ws u y hr.2 h

theorem altAt_reorder {n : String} : ∀ (cs : Comps) (i : Nat) (u : Ty) (v w : Val), altAt n cs i = some u →
    cs.reorderAlt i v w → u.reorder v w
  | .nil, _, u, _, _, h, _ => by simp [altAt] at h
  | .cons f t cs, 0, u, v, w, h, hr => by
    simp only [altAt] at h
    split at h
    · cases h; exact hr
    · simp at h
  | .cons f t cs, i + 1, u, v, w, h, hr => altAt_reorder cs i u v w h hr

/-- Every part of the reordered value is a part of the value itself. -/
theorem look_found : ∀ (q : List Step) (t : Ty) (v w : Val), (v = w ∨ t.reorder v w) → (look q t w).isSome = true →
    ∃ q', Alike q' q ∧ PartOf t v w q q'
  | [], t, v, w, hr, _ => ⟨[], rfl, t, v, w, fun _ h => h, fun _ => rfl, fun _ => rfl, hr⟩
  | .field n :: q, t, v, w, hr, h => by
    cases t <;> try (simp [look] at h; done)
    cases w <;> try (simp [look] at h; done)
    rename_i a cs ws
    have hv : ∃ vs, v = .record vs ∧ (vs = ws ∨ cs.reorder vs ws) := by
      rcases hr with rfl | hr
      · exact ⟨_, rfl, .inl rfl⟩
      · cases v <;> simp [Ty.reorder] at hr
        exact ⟨_, rfl, .inr hr⟩
    obtain ⟨vs, rfl, hr'⟩ := hv
    simp only [look] at h
    split at h
    · rename_i u y hy
      have hx : ∃ x, fieldAt n cs vs = some (u, x) ∧ (x = y ∨ u.reorder x y) := by
        rcases hr' with rfl | hr'
        · exact ⟨y, hy, .inl rfl⟩
        · exact fieldAt_reorder cs vs ws u y hr' hy
      obtain ⟨x, hx, hxy⟩ := hx
      obtain ⟨q', ha, u', x', y', g1, g2, g3, g4⟩ := look_found q u x y hxy h
      refine ⟨.field n :: q', Alike.cons _ ha, u', x', y', fun r he => g1 r ?_, fun r => ?_, fun r => ?_, g4⟩
      · exact endsAll_fieldAt cs ws u y hy (by simpa [ends] using he)
      · simp only [List.cons_append, look, hy, g2]
      · simp only [List.cons_append, look, hx, g3]
    · simp at h
  | .alternative n :: q, t, v, w, hr, h => by
    cases t <;> try (simp [look] at h; done)
    cases w <;> try (simp [look] at h; done)
    rename_i a cs i w
    simp only [look] at h
    split at h
    · rename_i u hu
      have hv : ∃ x, v = .alt i x ∧ (x = w ∨ u.reorder x w) := by
        rcases hr with rfl | hr
        · exact ⟨_, rfl, .inl rfl⟩
        · cases v <;> simp [Ty.reorder] at hr
          obtain ⟨rfl, hr⟩ := hr
          exact ⟨_, rfl, .inr (altAt_reorder cs _ u _ _ hu hr)⟩
      obtain ⟨x, rfl, hxy⟩ := hv
      obtain ⟨q', ha, u', x', y', g1, g2, g3, g4⟩ := look_found q u x w hxy h
      refine ⟨.alternative n :: q', Alike.cons _ ha, u', x', y', fun r he => g1 r ?_, fun r => ?_, fun r => ?_, g4⟩
      · exact endsAll_altAt cs i u hu (by simpa [ends] using he)
      · simp only [List.cons_append, look, hu, g2]
      · simp only [List.cons_append, look, hu, g3]
    · simp at h
  | .element i :: q, t, v, w, hr, h => by
    cases t <;> try (simp [look] at h; done)
    cases w <;> try (simp [look] at h; done)
    rename_i s a u ws
    simp only [look] at h
    split at h
    · rename_i y hy
      have hv : ∃ vs j x, v = .list vs ∧ elementAt vs j = some x ∧ (x = y ∨ u.reorder x y) := by
        rcases hr with rfl | hr
        · exact ⟨_, i, y, rfl, hy, .inl rfl⟩
        · cases v <;> simp only [Ty.reorder] at hr
          rename_i vs
          obtain ⟨us, h1, h2⟩ := hr
          rw [elementAt_eq] at hy
          obtain ⟨x, hx, hxy⟩ := all2_mem_right h2 y (List.mem_of_getElem? hy)
          have hx' : x ∈ vs.toList := by
            cases s
            · simp at h1
              exact h1 ▸ hx
            · exact (show us.Perm vs.toList from by simpa using h1).mem_iff.1 hx
          obtain ⟨j, hj⟩ := List.getElem?_of_mem hx'
          exact ⟨vs, j, x, rfl, by rw [elementAt_eq]; exact hj, .inr hxy⟩
      obtain ⟨vs, j, x, rfl, hx, hxy⟩ := hv
      obtain ⟨q', ha, u', x', y', g1, g2, g3, g4⟩ := look_found q u x y hxy h
      refine ⟨.element j :: q', ?_, u', x', y', fun r he => g1 r (by simpa [ends] using he), fun r => ?_, fun r => ?_, g4⟩
      · simpa [Alike, anyElement] using ha
      · simp only [List.cons_append, look, hy, g2]
      · simp only [List.cons_append, look, hx, g3]
    · simp at h

/-- A primitive part of the reordered value is a part of the value. -/
theorem look_prim (q : List Step) (t : Ty) (v w y : Val) (hr : v = w ∨ t.reorder v w) (h : look q t w = some y)
    (he : ends q t = true) : ∃ q', Alike q' q ∧ look q' t v = some y := by
  obtain ⟨q', ha, u, x, y', g1, g2, g3, g4⟩ := look_found q t v w hr (by rw [h]; rfl)
  refine ⟨q', ha, ?_⟩
  have e := g2 []
  have e' := g3 []
  rw [List.append_nil] at e e'
  rw [h] at e
  rw [e']
  have hu := g1 [] (by simpa using he)
  cases u <;> simp [ends] at hu
  simp only [look, Option.some.injEq] at e ⊢
  rcases g4 with g4 | g4
  · rw [g4, e]
  · simp only [Ty.reorder] at g4
    rw [g4, e]

theorem look_prefix : ∀ (q r : List Step) (t : Ty) (w : Val), (look (q ++ r) t w).isSome = true → (look q t w).isSome = true
  | [], _, _, _, _ => rfl
  | .field n :: q, r, t, w, h => by
    cases t <;> try (simp [look] at h; done)
    cases w <;> try (simp [look] at h; done)
    simp only [List.cons_append, look] at h ⊢
    split at h
    · exact look_prefix q r _ _ h
    · simp at h
  | .alternative n :: q, r, t, w, h => by
    cases t <;> try (simp [look] at h; done)
    cases w <;> try (simp [look] at h; done)
    simp only [List.cons_append, look] at h ⊢
    split at h
    · exact look_prefix q r _ _ h
    · simp at h
  | .element i :: q, r, t, w, h => by
    cases t <;> try (simp [look] at h; done)
    cases w <;> try (simp [look] at h; done)
    simp only [List.cons_append, look] at h ⊢
    split at h
    · exact look_prefix q r _ _ h
    · simp at h

/-- Two primitive parts of one part of the reordered value are two parts of one part of the value. -/
theorem look_pair (t : Ty) (v w : Val) (hr : t.reorder v w) (q r : List Step) (n : String) (k y : Val)
    (hk : look (q ++ [.field n]) t w = some k) (hy : look (q ++ r) t w = some y)
    (e1 : ends (q ++ [.field n]) t = true) (e2 : ends (q ++ r) t = true) :
    ∃ q' r', Alike q' q ∧ Alike r' r ∧ look (q' ++ [.field n]) t v = some k ∧ look (q' ++ r') t v = some y := by
  obtain ⟨q', ha, u, x, z, g1, g2, g3, g4⟩ := look_found q t v w (.inr hr) (look_prefix q r t w (by rw [hy]; rfl))
  rw [g2] at hk hy
  obtain ⟨p', a1, b1⟩ := look_prim [.field n] u x z k g4 hk (g1 _ e1)
  obtain ⟨r', a2, b2⟩ := look_prim r u x z y g4 hy (g1 _ e2)
  rw [Alike.field_inv a1] at b1
  exact ⟨q', r', ha, a2, by rw [g3, b1], by rw [g3, b2]⟩

end Asn1
end Verif
