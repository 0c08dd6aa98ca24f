import Verif.Asn1.OpenWhileAll

/-!
# Earlier looks raise nothing that later ones do not
-/

namespace Verif
namespace Asn1

open Nd

namespace Nd

theorem bind_fails {α β : Type} {p : Nd α} {k : α → Nd β} : bind p k none ↔ p none ∨ ∃ a, p (some a) ∧ k a none := by
  simp [bind]

theorem ret_fails {α : Type} {a : α} : ret a none ↔ False := by simp [ret]

theorem lift_fails {α : Type} {o : Option α} : lift o none ↔ o = none := by
  simp only [lift]
  exact eq_comm

theorem map_fails {α β : Type} {f : α → Nd β} : ∀ {xs : List α}, map f xs none → ∃ x ∈ xs, f x none
  | [], h => by simp [map, ret] at h
  | x :: xs, h => by
    simp only [map, bind_fails, ret_fails, and_false, exists_false, or_false] at h
    rcases h with h | ⟨a, _, h⟩
    · exact ⟨x, by simp, h⟩
    · obtain ⟨y, hy, h⟩ := map_fails h
      exact ⟨y, by simp [hy], h⟩

theorem map_each {α β : Type} {f : α → Nd β} : ∀ {xs : List α} {ys : List β}, map f xs (some ys) → ∀ x ∈ xs, ∃ y, f x (some y)
  | [], _, _, x, hx => by simp at hx
  | x :: xs, ys, h, y, hy => by
    obtain ⟨z, zs, rfl, h1, h2⟩ := map_cons_iff.1 h
    rcases List.mem_cons.1 hy with rfl | hy
    · exact ⟨z, h1⟩
    · exact map_each h2 y hy

end Nd

variable {L L' : Looks} {F G : Ty → Bytes → Nd OVal}

/-- What the later decoder can decode, the earlier one can. -/
def Safe (L : Looks) (F G : Ty → Bytes → Nd OVal) : Prop := ∀ m k u c w, L m k (some u) → G u c (some w) → ¬ F u c none

theorem wopenOne_safe {u : Ty} (hS : ∀ c w, G u c (some w) → ¬ F u c none) {v v' w : OVal} (h : Refines v v')
    (hw : wopenOne G u v' (some w)) : ¬ wopenOne F u v none := by
  obtain ⟨b, o, rfl, rfl, h1⟩ := wopenOne_iff.1 hw
  cases h
  intro hf
  simp only [wopenOne, bind_fails, ret_fails, and_false, exists_false, or_false] at hf
  exact hS b o h1 hf

theorem listed_safe {u : Ty} (hS : ∀ c w, G u c (some w) → ¬ F u c none) : ∀ {vs ws : OVals} {zs : List OVal}, RefinesL vs ws →
    Nd.map (wopenOne G u) ws.toList (some zs) → ¬ Nd.map (wopenOne F u) vs.toList none
  | .nil, _, _, _, _ => by simp [OVals.toList, Nd.map, ret]
  | .cons v vs, _, zs, h, hw => by
    cases h with
    | cons _ w _ ws h1 h2 =>
      obtain ⟨z, zs, rfl, h3, h4⟩ := map_cons_iff.1 hw
      intro hf
      simp only [OVals.toList, Nd.map, bind_fails, ret_fails, and_false, exists_false, or_false] at hf
      rcases hf with hf | ⟨_, _, hf⟩
      · exact wopenOne_safe hS h1 h3 hf
      · exact listed_safe hS h2 h4 hf

theorem wopenVal_safe {u : Ty} (hS : ∀ c w, G u c (some w) → ¬ F u c none) {v v' w : OVal} (h : Refines v v') (hr : v'.raw)
    (hw : wopenVal G u v' (some w)) : ¬ wopenVal F u v none := by
  cases h with
  | list vs ws h1 =>
    simp only [wopenVal, bind_iff, ret_iff] at hw
    obtain ⟨zs, h2, rfl⟩ := hw
    intro hf
    simp only [wopenVal, bind_fails, ret_fails, and_false, exists_false, or_false] at hf
    exact listed_safe hS h1 h2 hf
  | leaf v => exact wopenOne_safe hS (.leaf v) hw
  | record | alt => exact (by simp [wopenVal, wopenOne, fail] at hw)
  | opened | found => exact hr.elim

theorem wopenField_safe (hL : Later L L') (hS : Safe L F G) (ds : Comps) {us us' : OVals} (hd : RefinesL us us') (hdr : us'.raw)
    (fld : Field) {v v' w : OVal} (h : Refines v v') (hr : v'.raw) (hw : wopenField L' G ds us' fld v' (some w)) :
    ¬ wopenField L F ds us fld v none := by
  intro hf
  unfold wopenField at hw hf
  cases ho : fld.openType with
  | none => simp only [ho, ret_fails] at hf
  | some o =>
    simp only [ho] at hw hf
    rw [h.absent hr] at hf
    split at hf
    · exact ret_fails.1 hf
    · rename_i ha
      rw [if_neg ha] at hw
      rw [governor_refines _ ds hd hdr] at hf
      cases hg : governor o.governor ds us' with
      | none => simp [hg, fail] at hw
      | some g =>
        simp only [hg] at hw hf
        obtain ⟨r, h1, h2⟩ := hf
        obtain ⟨r', h3, h4⟩ := hw
        cases r with
        | none => exact ret_fails.1 h2
        | some u =>
          have := hL _ _ u r' h1 h3
          subst this
          exact wopenVal_safe (hS _ _ u · · h1) h hr h4 h2

theorem wopenAll_safe (hL : Later L L') (hS : Safe L F G) (ds : Comps) {us us' : OVals} (hd : RefinesL us us') (hdr : us'.raw) :
    ∀ (cs : Comps) {vs vs' ws : OVals}, RefinesL vs vs' → vs'.raw → wopenAll L' G ds us' cs vs' (some ws) →
    ¬ wopenAll L F ds us cs vs none
  | .nil, _, _, _, _, _, _ => by simp [wopenAll, ret]
  | .cons fld t cs, _, _, _, h, hr, hw => by
    cases h with
    | nil => simp [wopenAll, ret]
    | cons v v' vs vs' h1 h2 =>
      simp only [wopenAll, bind_iff, ret_iff] at hw
      obtain ⟨w, e1, ws, e2, rfl⟩ := hw
      intro hf
      simp only [wopenAll, bind_fails, ret_fails, and_false, exists_false, or_false] at hf
      rcases hf with hf | ⟨_, _, hf⟩
      · exact wopenField_safe hL hS ds hd hdr fld h1 hr.1 e1 hf
      · exact wopenAll_safe hL hS ds hd hdr cs h2 hr.2 e2 hf

mutual
theorem wdecT_safe (hL : Later L L') (hm : More L F G) (hN : Meant G) (hS : Safe L F G) : ∀ (t : Ty) (x : TLV) (w : OVal),
    wdecT L' G t x (some w) → ¬ wdecT L F t x none
  | .prim k a, x, w, h => by
    simp only [wdecT, lift_iff] at h
    simp only [wdecT, lift_fails, h]
    simp
  | .seq s a cs, x, w, h => by
    simp only [wdecT, bind_iff, lift_iff] at h
    obtain ⟨xs, h1, vs, h2, h3⟩ := h
    intro hf
    simp only [wdecT, h1, bind_some] at hf
    simp only [bind_fails] at hf
    have key : ∀ vs', (if s then (if xs.all cs.matches then wdecSet L F cs xs else fail) else wdecComps L F cs xs) (some vs') →
        RefinesL vs' vs ∧ vs.raw := by
      intro vs' h2'
      cases s with
      | false =>
        simp only [Bool.false_eq_true, if_false] at h2 h2'
        exact ⟨wdecComps_more hL hm hN cs xs vs' vs h2' h2, wdecComps_raw cs xs vs h2⟩
      | true =>
        simp only [if_true] at h2 h2'
        split at h2
        · rename_i ha
          rw [if_pos ha] at h2'
          exact ⟨wdecSet_more hL hm hN cs xs vs' vs h2' h2, wdecSet_raw cs xs vs h2⟩
        · simp [fail] at h2
    rcases hf with hf | ⟨vs', h2', hf⟩
    · cases s with
      | false =>
        simp only [Bool.false_eq_true, if_false] at h2 hf
        exact wdecComps_safe hL hm hN hS cs xs vs h2 hf
      | true =>
        simp only [if_true] at h2 hf
        split at h2
        · rename_i ha
          rw [if_pos ha] at hf
          exact wdecSet_safe hL hm hN hS cs xs vs h2 hf
        · simp [fail] at h2
    · obtain ⟨k1, k2⟩ := key vs' h2'
      unfold wfinish at h3 hf
      rw [presentNames_refines cs k1 k2] at hf
      split at h3
      · rename_i hn
        rw [if_pos hn] at hf
        split at h3
        · rename_i ha
          rw [if_pos ha] at hf
          exact ret_fails.1 hf
        · simp [fail] at h3
      · rename_i hn
        rw [if_neg hn] at hf
        simp only [bind_iff, ret_iff] at h3
        obtain ⟨ws, h4, rfl⟩ := h3
        simp only [bind_fails, ret_fails, and_false, exists_false, or_false] at hf
        exact wopenAll_safe hL hS cs k1 k2 cs k1 k2 h4 hf
  | .of s a t, x, w, h => by
    simp only [wdecT, bind_iff, ret_iff, lift_iff] at h
    obtain ⟨xs, h1, vs, h2, rfl⟩ := h
    intro hf
    simp only [wdecT, h1, bind_some] at hf
    simp only [bind_fails, ret_fails, and_false, exists_false, or_false] at hf
    obtain ⟨y, hy, hf⟩ := map_fails hf
    obtain ⟨z, hz⟩ := map_each h2 y hy
    exact wdecT_safe hL hm hN hS t y z hz hf
  | .choice a cs, x, w, h => by
    simp only [wdecT] at h ⊢
    cases ht : a.tags with
    | nil =>
      simp only [ht] at h
      exact wdecAlt_safe hL hm hN hS cs 0 x w h
    | cons hd tl =>
      simp only [ht, bind_iff, lift_iff] at h
      obtain ⟨z, h1, h2⟩ := h
      simp only [h1, bind_some]
      exact wdecAlt_safe hL hm hN hS cs 0 z.1 w h2
  | .bad _, _, _, h => by simp [wdecT, fail] at h
theorem wdecComps_safe (hL : Later L L') (hm : More L F G) (hN : Meant G) (hS : Safe L F G) : ∀ (cs : Comps) (xs : List TLV) (ws : OVals),
    wdecComps L' G cs xs (some ws) → ¬ wdecComps L F cs xs none
  | .nil, [], _, _ => by simp [wdecComps, ret]
  | .nil, _ :: _, _, h => by simp [wdecComps, fail] at h
  | .cons fld t cs, [], _, h => by
    simp only [wdecComps, bind_iff, ret_iff, lift_iff] at h
    obtain ⟨v, h1, vs, h2, rfl⟩ := h
    intro hf
    simp only [wdecComps, h1, bind_some] at hf
    simp only [bind_fails, ret_fails, and_false, exists_false, or_false] at hf
    exact wdecComps_safe hL hm hN hS cs [] vs h2 hf
  | .cons fld t cs, x :: xs, _, h => by
    simp only [wdecComps] at h ⊢
    split at h
    · rename_i hc
      rw [if_pos hc]
      simp only [bind_iff, ret_iff] at h
      obtain ⟨v, h1, vs, h2, rfl⟩ := h
      intro hf
      simp only [bind_fails, ret_fails, and_false, exists_false, or_false] at hf
      rcases hf with hf | ⟨_, _, hf⟩
      · exact wdecT_safe hL hm hN hS t x v h1 hf
      · exact wdecComps_safe hL hm hN hS cs xs vs h2 hf
    · rename_i hc
      rw [if_neg hc]
      simp only [bind_iff, ret_iff, lift_iff] at h
      obtain ⟨v, h1, vs, h2, rfl⟩ := h
      intro hf
      simp only [h1, bind_some] at hf
      simp only [bind_fails, ret_fails, and_false, exists_false, or_false] at hf
      exact wdecComps_safe hL hm hN hS cs (x :: xs) vs h2 hf
theorem wdecSet_safe (hL : Later L L') (hm : More L F G) (hN : Meant G) (hS : Safe L F G) : ∀ (cs : Comps) (xs : List TLV) (ws : OVals),
    wdecSet L' G cs xs (some ws) → ¬ wdecSet L F cs xs none
  | .nil, _, _, _ => by simp [wdecSet, ret]
  | .cons fld t cs, xs, _, h => by
    simp only [wdecSet, bind_iff] at h
    obtain ⟨us, h1, vs, h2, h3⟩ := h
    intro hf
    simp only [wdecSet, bind_fails] at hf
    rcases hf with hf | ⟨us', h1', hf | ⟨vs', h2', hf⟩⟩
    · obtain ⟨y, hy, hf⟩ := map_fails hf
      obtain ⟨z, hz⟩ := map_each h1 y hy
      exact wdecT_safe hL hm hN hS t y z hz hf
    · exact wdecSet_safe hL hm hN hS cs xs vs h2 hf
    · obtain ⟨_, l2⟩ := last_refines (.of_maps (fun y _ a b ha hb => wdecT_more hL hm hN t y a b ha hb) h1' h1)
      unfold wlast at hf
      cases hu' : us'.getLast? with
      | some w' => simp only [hu', ret_fails] at hf
      | none =>
        simp only [hu'] at hf
        rcases wlast_cases h3 with ⟨w, hu, _⟩ | ⟨hu, v, hv, _⟩
        · rw [l2.1 hu'] at hu; simp at hu
        · simp only [hv, ret_fails] at hf
theorem wdecAlt_safe (hL : Later L L') (hm : More L F G) (hN : Meant G) (hS : Safe L F G) : ∀ (cs : Comps) (k : Nat) (x : TLV) (w : OVal),
    wdecAlt L' G cs k x (some w) → ¬ wdecAlt L F cs k x none
  | .nil, _, _, _, h => by simp [wdecAlt, fail] at h
  | .cons fld t cs, k, x, w, h => by
    simp only [wdecAlt] at h ⊢
    split at h
    · rename_i hc
      rw [if_pos hc]
      simp only [bind_iff, ret_iff] at h
      obtain ⟨v, h1, rfl⟩ := h
      intro hf
      simp only [bind_fails, ret_fails, and_false, exists_false, or_false] at hf
      exact wdecT_safe hL hm hN hS t x v h1 hf
    · rename_i hc
      rw [if_neg hc]
      exact wdecAlt_safe hL hm hN hS cs (k + 1) x w h
end

/-- If decoding succeeds with later looks, it raises nothing with earlier ones. -/
theorem wdecode_safe {L L' : Looks} (hL : Later L L') : ∀ (n : Nat) (t : Ty) (b : Bytes) (p : OVal × Bytes),
    wdecode L' n t b (some p) → ¬ wdecode L n t b none
  | 0, _, _, _, h => by simp [wdecode, fail] at h
  | n + 1, t, b, p, h => by
    simp only [wdecode, bind_iff, ret_iff, lift_iff] at h
    obtain ⟨x, h1, w, h2, rfl⟩ := h
    intro hf
    simp only [wdecode, h1, bind_some] at hf
    simp only [bind_fails, ret_fails, and_false, exists_false, or_false] at hf
    refine wdecT_safe hL ?_ ?_ ?_ t x.1 w h2 hf
    · intro m k u c a a' hm ha ha'
      simp only [bind_iff, ret_iff] at ha ha'
      obtain ⟨⟨p, q⟩, h3, rfl⟩ := ha
      obtain ⟨⟨p', q'⟩, h3', rfl⟩ := ha'
      exact (wdecode_more hL n u c _ _ _ _ h3 h3').1
    · intro u c w hw
      simp only [bind_iff, ret_iff] at hw
      obtain ⟨⟨w', r''⟩, h3, rfl⟩ := hw
      obtain ⟨v, v', e1, e2, e3⟩ := wdecode_meant L' n u c _ _ h3
      exact ⟨v, r'', v', e1, e2, e3⟩
    · intro m k u c w hm hw hf'
      simp only [bind_iff, ret_iff] at hw
      obtain ⟨p, h3, rfl⟩ := hw
      rcases hf' with ⟨hf', _⟩ | ⟨_, _, hf'⟩
      · exact wdecode_safe hL n u c p h3 hf'
      · exact ret_fails.1 hf'

end Asn1
end Verif
