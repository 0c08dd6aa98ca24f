import Verif.Asn1.OpenWhileDet
import Verif.Asn1.OpenSound
import Verif.Spec.Refine

/-!
# Later looks say more
-/

namespace Verif
namespace Asn1

open Nd

namespace Nd

theorem bind_iff {α β : Type} {p : Nd α} {k : α → Nd β} {b : β} : bind p k (some b) ↔ ∃ a, p (some a) ∧ k a (some b) := by
  simp [bind]

theorem ret_iff {α : Type} {a b : α} : ret a (some b) ↔ b = a := by simp [ret]

theorem lift_iff {α : Type} {o : Option α} {b : α} : lift o (some b) ↔ o = some b := by
  simp only [lift]
  exact eq_comm

theorem fail_iff {α : Type} {b : α} : fail (some b) ↔ False := by simp [fail]

theorem map_cons_iff {α β : Type} {f : α → Nd β} {x : α} {xs : List α} {ys : List β} :
    map f (x :: xs) (some ys) ↔ ∃ z zs, ys = z :: zs ∧ f x (some z) ∧ map f xs (some zs) := by
  simp only [map, bind_iff, ret_iff]
  constructor
  · rintro ⟨z, h1, zs, h2, h3⟩; exact ⟨z, zs, h3, h1, h2⟩
  · rintro ⟨z, zs, h3, h1, h2⟩; exact ⟨z, h1, zs, h2, h3⟩

theorem map_nil_iff {α β : Type} {f : α → Nd β} {ys : List β} : map f [] (some ys) ↔ ys = [] := by simp [map, ret]

end Nd

/-- Not the contents of an open type field. -/
def OVal.raw : OVal → Prop
  | .opened _ _ => False
  | _ => True

def OVals.raw : OVals → Prop
  | .nil => True
  | .cons w ws => w.raw ∧ ws.raw

variable {L L' : Looks} {F G : Ty → Bytes → Nd OVal}

theorem wdecAlt_raw : ∀ (cs : Comps) (k : Nat) (x : TLV) (w : OVal), wdecAlt L F cs k x (some w) → w.raw
  | .nil, _, _, _, h => by simp [wdecAlt, fail] at h
  | .cons _ t cs, k, x, w, h => by
    simp only [wdecAlt] at h
    split at h
    · simp only [bind_iff, ret_iff] at h
      obtain ⟨a, _, rfl⟩ := h
      trivial
    · exact wdecAlt_raw cs (k + 1) x w h

theorem wdecT_raw : ∀ (t : Ty) (x : TLV) (w : OVal), wdecT L F t x (some w) → w.raw
  | .prim k a, x, w, h => by
    simp only [wdecT, lift_iff, Option.map_eq_some_iff] at h
    obtain ⟨a, _, rfl⟩ := h
    trivial
  | .seq s a cs, x, w, h => by
    simp only [wdecT, bind_iff] at h
    obtain ⟨xs, _, vs, _, h3⟩ := h
    unfold wfinish at h3
    split at h3
    · split at h3
      · rw [ret_iff] at h3; subst h3; trivial
      · simp [fail] at h3
    · simp only [bind_iff, ret_iff] at h3
      obtain ⟨ws, _, rfl⟩ := h3
      trivial
  | .of s a t, x, w, h => by
    simp only [wdecT, bind_iff, ret_iff] at h
    obtain ⟨xs, _, vs, _, rfl⟩ := h
    trivial
  | .choice a cs, x, w, h => by
    simp only [wdecT] at h
    cases ht : a.tags with
    | nil =>
      simp only [ht] at h
      exact wdecAlt_raw cs 0 x w h
    | cons =>
      simp only [ht, bind_iff] at h
      obtain ⟨z, _, h⟩ := h
      exact wdecAlt_raw cs 0 z.1 w h
  | .bad _, _, _, h => by simp [wdecT, fail] at h

theorem wdecComps_raw : ∀ (cs : Comps) (xs : List TLV) (ws : OVals), wdecComps L F cs xs (some ws) → ws.raw
  | .nil, [], ws, h => by simp only [wdecComps, ret_iff] at h; subst h; trivial
  | .nil, _ :: _, _, h => by simp [wdecComps, fail] at h
  | .cons fld t cs, [], ws, h => by
    simp only [wdecComps, bind_iff, ret_iff] at h
    obtain ⟨v, _, vs, h2, rfl⟩ := h
    exact ⟨trivial, wdecComps_raw cs [] vs h2⟩
  | .cons fld t cs, x :: xs, ws, h => by
    simp only [wdecComps] at h
    split at h
    · simp only [bind_iff, ret_iff] at h
      obtain ⟨v, h1, vs, h2, rfl⟩ := h
      exact ⟨wdecT_raw t x v h1, wdecComps_raw cs xs vs h2⟩
    · simp only [bind_iff, ret_iff] at h
      obtain ⟨v, _, vs, h2, rfl⟩ := h
      exact ⟨trivial, wdecComps_raw cs (x :: xs) vs h2⟩

theorem map_mem {α β : Type} {f : α → Nd β} : ∀ {xs : List α} {ys : List β}, Nd.map f xs (some ys) → ∀ y ∈ ys, ∃ x ∈ xs, f x (some y)
  | [], ys, h, y, hy => by rw [map_nil_iff] at h; subst h; simp at hy
  | x :: xs, ys, h, y, hy => by
    obtain ⟨z, zs, rfl, h1, h2⟩ := map_cons_iff.1 h
    rcases List.mem_cons.1 hy with rfl | hy
    · exact ⟨x, by simp, h1⟩
    · obtain ⟨x', hx, h3⟩ := map_mem h2 y hy
      exact ⟨x', by simp [hx], h3⟩

theorem wlast_cases {fld : Field} {ws : List OVal} {vs us : OVals} (h : wlast fld ws vs (some us)) :
    (∃ w, ws.getLast? = some w ∧ us = .cons w vs) ∨ (ws.getLast? = none ∧ ∃ w, fld.mode.missing = some w ∧ us = .cons (.leaf w) vs) := by
  unfold wlast at h
  cases hl : ws.getLast? with
  | some w => simp only [hl, ret_iff] at h; exact Or.inl ⟨w, rfl, h⟩
  | none =>
    simp only [hl] at h
    cases hm : fld.mode.missing with
    | some w => simp only [hm, ret_iff] at h; exact Or.inr ⟨rfl, w, rfl, h⟩
    | none => simp [hm, fail] at h

theorem wdecSet_raw : ∀ (cs : Comps) (xs : List TLV) (ws : OVals), wdecSet L F cs xs (some ws) → ws.raw
  | .nil, _, ws, h => by simp only [wdecSet, ret_iff] at h; subst h; trivial
  | .cons fld t cs, xs, ws, h => by
    simp only [wdecSet, bind_iff] at h
    obtain ⟨us, h1, vs, h2, h3⟩ := h
    have ih := wdecSet_raw cs xs vs h2
    rcases wlast_cases h3 with ⟨w, hw, rfl⟩ | ⟨_, w, _, rfl⟩
    · obtain ⟨y, _, hy⟩ := map_mem h1 w (List.mem_of_getLast? hw)
      exact ⟨wdecT_raw t y w hy, ih⟩
    · exact ⟨trivial, ih⟩

/-! ## What two results have in common before the open type fields are decoded -/

theorem Refines.absent {v w : OVal} (h : Refines v w) (hw : w.raw) : v.isAbsent = w.isAbsent := by
  cases h with
  | leaf | record | list | alt => rfl
  | opened | found => exact hw.elim

theorem presentNames_refines : ∀ (cs : Comps) {vs ws : OVals}, RefinesL vs ws → ws.raw → opresentNames cs vs = opresentNames cs ws
  | .nil, _, _, _, _ => by simp [opresentNames]
  | .cons f t cs, _, _, h, hr => by
    cases h with
    | nil => rfl
    | cons v w vs ws h1 h2 =>
      simp only [opresentNames, h1.absent hr.1, presentNames_refines cs h2 hr.2]

theorem governor_refines (name : String) : ∀ (cs : Comps) {vs ws : OVals}, RefinesL vs ws → ws.raw →
    governor name cs vs = governor name cs ws
  | .nil, _, _, _, _ => by simp [governor]
  | .cons f t cs, _, _, h, hr => by
    cases h with
    | nil => rfl
    | cons v w vs ws h1 h2 =>
      simp only [governor, governor_refines name cs h2 hr.2]
      split
      · cases h1 with
        | leaf | record | list | alt => rfl
        | opened | found => exact hr.1.elim
      · rfl

/-- The looks of `L'` come later than those of `L`: keys keep their types. -/
def Later (L L' : Looks) : Prop := ∀ m k u r, L m k (some u) → L' m k r → r = some u

/-- The later decoder says more about what the earlier one decodes. -/
def More (L : Looks) (F G : Ty → Bytes → Nd OVal) : Prop := ∀ m k u c w w', L m k (some u) → F u c (some w) → G u c (some w') →
  Refines w w'

/-- What it decodes are meanings of the octets. -/
def Meant (G : Ty → Bytes → Nd OVal) : Prop := ∀ u c w, G u c (some w) → ∃ v rest v', decode u c = some (v, rest) ∧
  v'.plain? = some v ∧ Refines v' w

theorem wopenOne_iff {u : Ty} {v w : OVal} : wopenOne F u v (some w) ↔ ∃ b o, v = .leaf (.octets b) ∧ w = .opened u o ∧ F u b (some o) := by
  constructor
  · intro h
    unfold wopenOne at h
    split at h
    · simp only [bind_iff, ret_iff] at h
      obtain ⟨o, h1, rfl⟩ := h
      exact ⟨_, o, rfl, rfl, h1⟩
    · simp [fail] at h
  · rintro ⟨b, o, rfl, rfl, h⟩
    simp only [wopenOne, bind_iff, ret_iff]
    exact ⟨o, h, rfl⟩

theorem wopenOne_found (hN : Meant G) {u : Ty} {v v' w : OVal} (h : Refines v v') (hr : v'.raw) (hw : wopenOne G u v' (some w)) :
    Refines v w := by
  obtain ⟨b, o, rfl, rfl, h1⟩ := wopenOne_iff.1 hw
  obtain ⟨x, rest, x', h2, h3, h4⟩ := hN u b o h1
  cases h
  exact .found u b rest x x' o h2 h3 h4

theorem wopenOne_more {u : Ty} {v v' w w' : OVal} (hm : ∀ c a b, F u c (some a) → G u c (some b) → Refines a b) (h : Refines v v')
    (hw : wopenOne F u v (some w)) (hw' : wopenOne G u v' (some w')) : Refines w w' := by
  obtain ⟨b, o, rfl, rfl, h1⟩ := wopenOne_iff.1 hw
  obtain ⟨b', o', rfl, rfl, h2⟩ := wopenOne_iff.1 hw'
  cases h
  exact .opened u o o' (hm b o o' h1 h2)

theorem RefinesL.of_maps {α : Type} {f g : α → Nd OVal} : ∀ {xs : List α} {ys zs : List OVal},
    (∀ x ∈ xs, ∀ y z, f x (some y) → g x (some z) → Refines y z) → Nd.map f xs (some ys) → Nd.map g xs (some zs) →
    RefinesL (.ofList ys) (.ofList zs)
  | [], ys, zs, _, h1, h2 => by
    rw [map_nil_iff] at h1 h2; subst h1; subst h2
    exact .nil
  | x :: xs, ys, zs, h, h1, h2 => by
    obtain ⟨y, ys, rfl, h3, h4⟩ := map_cons_iff.1 h1
    obtain ⟨z, zs, rfl, h5, h6⟩ := map_cons_iff.1 h2
    exact .cons _ _ _ _ (h x (by simp) y z h3 h5) (of_maps (fun x hx => h x (by simp [hx])) h4 h6)

theorem listed_found (hN : Meant G) {u : Ty} : ∀ {vs ws : OVals} {zs : List OVal}, RefinesL vs ws →
    Nd.map (wopenOne G u) ws.toList (some zs) → RefinesL vs (.ofList zs)
  | .nil, _, zs, h, hw => by
    cases h
    simp only [OVals.toList, map_nil_iff] at hw; subst hw
    exact .nil
  | .cons v vs, _, zs, h, hw => by
    cases h with
    | cons _ w _ ws h1 h2 =>
      obtain ⟨z, zs, rfl, h3, h4⟩ := map_cons_iff.1 hw
      obtain ⟨b, o, e, _, _⟩ := wopenOne_iff.1 h3
      exact .cons _ _ _ _ (wopenOne_found hN h1 (by rw [e]; trivial) h3) (listed_found hN h2 h4)

theorem listed_more {u : Ty} (hm : ∀ c a b, F u c (some a) → G u c (some b) → Refines a b) : ∀ {vs ws : OVals} {ys zs : List OVal},
    RefinesL vs ws → Nd.map (wopenOne F u) vs.toList (some ys) → Nd.map (wopenOne G u) ws.toList (some zs) →
    RefinesL (.ofList ys) (.ofList zs)
  | .nil, _, ys, zs, h, hv, hw => by
    cases h
    simp only [OVals.toList, map_nil_iff] at hv hw; subst hv; subst hw
    exact .nil
  | .cons v vs, _, ys, zs, h, hv, hw => by
    cases h with
    | cons _ w _ ws h1 h2 =>
      obtain ⟨y, ys, rfl, h5, h6⟩ := map_cons_iff.1 hv
      obtain ⟨z, zs, rfl, h3, h4⟩ := map_cons_iff.1 hw
      exact .cons _ _ _ _ (wopenOne_more hm h1 h5 h3) (listed_more hm h2 h6 h4)

theorem wopenVal_found (hN : Meant G) {u : Ty} {v v' w : OVal} (h : Refines v v') (hr : v'.raw) (hw : wopenVal G u v' (some w)) :
    Refines v w := by
  cases h with
  | list vs ws h1 =>
    simp only [wopenVal, bind_iff, ret_iff] at hw
    obtain ⟨zs, h2, rfl⟩ := hw
    exact .list _ _ (listed_found hN h1 h2)
  | leaf v => exact wopenOne_found hN (.leaf v) hr hw
  | record | alt => exact (by simp [wopenVal, wopenOne, fail] at hw)
  | opened | found => exact hr.elim

theorem wopenVal_more {u : Ty} {v v' w w' : OVal} (hm : ∀ c a b, F u c (some a) → G u c (some b) → Refines a b) (h : Refines v v')
    (hr : v'.raw) (hw : wopenVal F u v (some w)) (hw' : wopenVal G u v' (some w')) : Refines w w' := by
  cases h with
  | list vs ws h1 =>
    simp only [wopenVal, bind_iff, ret_iff] at hw hw'
    obtain ⟨zs, h2, rfl⟩ := hw
    obtain ⟨ys, h3, rfl⟩ := hw'
    exact .list _ _ (listed_more hm h1 h2 h3)
  | leaf v => exact wopenOne_more hm (.leaf v) hw hw'
  | record | alt => exact (by simp [wopenVal, wopenOne, fail] at hw)
  | opened | found => exact hr.elim

theorem wopenField_more (hL : Later L L') (hm : More L F G) (hN : Meant G) (ds : Comps) {us us' : OVals} (hd : RefinesL us us')
    (hdr : us'.raw) (fld : Field) {v v' w w' : OVal} (h : Refines v v') (hr : v'.raw) (hw : wopenField L F ds us fld v (some w))
    (hw' : wopenField L' G ds us' fld v' (some w')) : Refines w w' := by
  unfold wopenField at hw hw'
  cases ho : fld.openType with
  | none =>
    simp only [ho, ret_iff] at hw hw'
    subst hw; subst hw'
    exact h
  | some o =>
    simp only [ho] at hw hw'
    rw [h.absent hr] at hw
    split at hw
    · rename_i ha
      rw [if_pos ha, ret_iff] at hw'
      rw [ret_iff] at hw
      subst hw; subst hw'
      exact h
    · rename_i ha
      rw [if_neg ha] at hw'
      rw [governor_refines _ ds hd hdr] at hw
      cases hg : governor o.governor ds us' with
      | none => simp [hg, fail] at hw
      | some g =>
        simp only [hg] at hw hw'
        obtain ⟨r, h1, h2⟩ := hw
        obtain ⟨r', h3, h4⟩ := hw'
        cases r with
        | some u =>
          have := hL _ _ u r' h1 h3
          subst this
          exact wopenVal_more (fun c a b => hm _ _ u c a b h1) h hr h2 h4
        | none =>
          rw [wopenLook, ret_iff] at h2; subst h2
          cases r' with
          | none => rw [wopenLook, ret_iff] at h4; subst h4; exact h
          | some u => exact wopenVal_found hN h hr h4

theorem wopenAll_more (hL : Later L L') (hm : More L F G) (hN : Meant G) (ds : Comps) {us us' : OVals} (hd : RefinesL us us')
    (hdr : us'.raw) : ∀ (cs : Comps) {vs vs' ws ws' : OVals}, RefinesL vs vs' → vs'.raw → wopenAll L F ds us cs vs (some ws) →
    wopenAll L' G ds us' cs vs' (some ws') → RefinesL ws ws'
  | .nil, _, _, _, _, _, _, hw, hw' => by
    simp only [wopenAll, ret_iff] at hw hw'
    subst hw; subst hw'
    exact .nil
  | .cons fld t cs, _, _, _, _, h, hr, hw, hw' => by
    cases h with
    | nil =>
      simp only [wopenAll, ret_iff] at hw hw'
      subst hw; subst hw'
      exact .nil
    | cons v v' vs vs' h1 h2 =>
      simp only [wopenAll, bind_iff, ret_iff] at hw hw'
      obtain ⟨w, e1, ws, e2, rfl⟩ := hw
      obtain ⟨w', e3, ws', e4, rfl⟩ := hw'
      exact .cons _ _ _ _ (wopenField_more hL hm hN ds hd hdr fld h1 hr.1 e1 e3)
        (wopenAll_more hL hm hN ds hd hdr cs h2 hr.2 e2 e4)

theorem last_refines : ∀ {vs ws : List OVal}, RefinesL (.ofList vs) (.ofList ws) →
    (∀ v w, vs.getLast? = some v → ws.getLast? = some w → Refines v w) ∧ (vs.getLast? = none ↔ ws.getLast? = none)
  | [], [], _ => by simp
  | [], _ :: _, h => by cases h
  | _ :: _, [], h => by cases h
  | v :: vs, w :: ws, h => by
    simp only [OVals.ofList] at h
    cases h with
    | cons _ _ _ _ h1 h2 =>
      obtain ⟨i1, i2⟩ := last_refines h2
      simp only [List.getLast?_eq_none_iff] at i2
      refine ⟨?_, by simp⟩
      intro a b ha hb
      cases vs with
      | nil =>
        have : ws = [] := i2.1 rfl
        subst this
        simp at ha hb
        subst ha; subst hb
        exact h1
      | cons v2 vs =>
        cases ws with
        | nil => simp at i2
        | cons w2 ws =>
          rw [List.getLast?_cons_cons] at ha hb
          exact i1 a b ha hb

mutual
theorem wdecT_more (hL : Later L L') (hm : More L F G) (hN : Meant G) : ∀ (t : Ty) (x : TLV) (w w' : OVal), wdecT L F t x (some w) →
    wdecT L' G t x (some w') → Refines w w'
  | .prim k a, x, w, w', h, h' => by
    simp only [wdecT, lift_iff] at h h'
    rw [h] at h'
    simp only [Option.some.injEq] at h'
    subst h'
    simp only [Option.map_eq_some_iff] at h
    obtain ⟨v, _, rfl⟩ := h
    exact .leaf v
  | .seq s a cs, x, w, w', h, h' => by
    simp only [wdecT, bind_iff, lift_iff] at h h'
    obtain ⟨xs, h1, vs, h2, h3⟩ := h
    obtain ⟨xs', h1', vs', h2', h3'⟩ := h'
    rw [h1] at h1'
    simp only [Option.some.injEq] at h1'
    subst h1'
    have key : RefinesL vs vs' ∧ vs'.raw := by
      cases s with
      | false =>
        simp only [Bool.false_eq_true, if_false] at h2 h2'
        exact ⟨wdecComps_more hL hm hN cs xs vs vs' h2 h2', wdecComps_raw cs xs vs' h2'⟩
      | true =>
        simp only [if_true] at h2 h2'
        split at h2
        · rename_i ha
          rw [if_pos ha] at h2'
          exact ⟨wdecSet_more hL hm hN cs xs vs vs' h2 h2', wdecSet_raw cs xs vs' h2'⟩
        · simp [fail] at h2
    unfold wfinish at h3 h3'
    split at h3
    · rename_i hn
      rw [if_pos hn] at h3'
      split at h3
      · split at h3'
        · rw [ret_iff] at h3 h3'
          subst h3; subst h3'
          exact .record _ _ key.1
        · simp [fail] at h3'
      · simp [fail] at h3
    · rename_i hn
      rw [if_neg hn] at h3'
      simp only [bind_iff, ret_iff] at h3 h3'
      obtain ⟨ws, h4, rfl⟩ := h3
      obtain ⟨ws', h5, rfl⟩ := h3'
      exact .record _ _ (wopenAll_more hL hm hN cs key.1 key.2 cs key.1 key.2 h4 h5)
  | .of s a t, x, w, w', h, h' => by
    simp only [wdecT, bind_iff, ret_iff, lift_iff] at h h'
    obtain ⟨xs, h1, vs, h2, rfl⟩ := h
    obtain ⟨xs', h1', vs', h2', rfl⟩ := h'
    rw [h1] at h1'
    simp only [Option.some.injEq] at h1'
    subst h1'
    exact .list _ _ (.of_maps (fun y _ a b ha hb => wdecT_more hL hm hN t y a b ha hb) h2 h2')
  | .choice a cs, x, w, w', h, h' => by
    simp only [wdecT] at h h'
    cases ht : a.tags with
    | nil =>
      simp only [ht] at h h'
      exact wdecAlt_more hL hm hN cs 0 x w w' h h'
    | cons hd tl =>
      simp only [ht, bind_iff, lift_iff] at h h'
      obtain ⟨z, h1, h2⟩ := h
      obtain ⟨z', h1', h2'⟩ := h'
      rw [h1] at h1'
      simp only [Option.some.injEq] at h1'
      subst h1'
      exact wdecAlt_more hL hm hN cs 0 z.1 w w' h2 h2'
  | .bad _, _, _, _, h, _ => by simp [wdecT, fail] at h
theorem wdecComps_more (hL : Later L L') (hm : More L F G) (hN : Meant G) : ∀ (cs : Comps) (xs : List TLV) (ws ws' : OVals),
    wdecComps L F cs xs (some ws) → wdecComps L' G cs xs (some ws') → RefinesL ws ws'
  | .nil, [], _, _, h, h' => by
    simp only [wdecComps, ret_iff] at h h'
    subst h; subst h'
    exact .nil
  | .nil, _ :: _, _, _, h, _ => by simp [wdecComps, fail] at h
  | .cons fld t cs, [], _, _, h, h' => by
    simp only [wdecComps, bind_iff, ret_iff, lift_iff] at h h'
    obtain ⟨v, h1, vs, h2, rfl⟩ := h
    obtain ⟨v', h1', vs', h2', rfl⟩ := h'
    rw [h1] at h1'
    simp only [Option.some.injEq] at h1'
    subst h1'
    exact .cons _ _ _ _ (.leaf v) (wdecComps_more hL hm hN cs [] vs vs' h2 h2')
  | .cons fld t cs, x :: xs, _, _, h, h' => by
    simp only [wdecComps] at h h'
    split at h
    · rename_i hc
      rw [if_pos hc] at h'
      simp only [bind_iff, ret_iff] at h h'
      obtain ⟨v, h1, vs, h2, rfl⟩ := h
      obtain ⟨v', h1', vs', h2', rfl⟩ := h'
      exact .cons _ _ _ _ (wdecT_more hL hm hN t x v v' h1 h1') (wdecComps_more hL hm hN cs xs vs vs' h2 h2')
    · rename_i hc
      rw [if_neg hc] at h'
      simp only [bind_iff, ret_iff, lift_iff] at h h'
      obtain ⟨v, h1, vs, h2, rfl⟩ := h
      obtain ⟨v', h1', vs', h2', rfl⟩ := h'
      rw [h1] at h1'
      simp only [Option.some.injEq] at h1'
      subst h1'
      exact .cons _ _ _ _ (.leaf v) (wdecComps_more hL hm hN cs (x :: xs) vs vs' h2 h2')
theorem wdecSet_more (hL : Later L L') (hm : More L F G) (hN : Meant G) : ∀ (cs : Comps) (xs : List TLV) (ws ws' : OVals),
    wdecSet L F cs xs (some ws) → wdecSet L' G cs xs (some ws') → RefinesL ws ws'
  | .nil, _, _, _, h, h' => by
    simp only [wdecSet, ret_iff] at h h'
    subst h; subst h'
    exact .nil
  | .cons fld t cs, xs, _, _, h, h' => by
    simp only [wdecSet, bind_iff] at h h'
    obtain ⟨us, h1, vs, h2, h3⟩ := h
    obtain ⟨us', h1', vs', h2', h3'⟩ := h'
    have hs := wdecSet_more hL hm hN cs xs vs vs' h2 h2'
    obtain ⟨l1, l2⟩ := last_refines (.of_maps (fun y _ a b ha hb => wdecT_more hL hm hN t y a b ha hb) h1 h1')
    rcases wlast_cases h3 with ⟨w, hu, rfl⟩ | ⟨hu, v, hv, rfl⟩ <;> rcases wlast_cases h3' with ⟨w', hu', rfl⟩ | ⟨hu', v', hv', rfl⟩
    · exact .cons _ _ _ _ (l1 w w' hu hu') hs
    · rw [l2.2 hu'] at hu; simp at hu
    · rw [l2.1 hu] at hu'; simp at hu'
    · rw [hv] at hv'
      simp only [Option.some.injEq] at hv'
      subst hv'
      exact .cons _ _ _ _ (.leaf v) hs
theorem wdecAlt_more (hL : Later L L') (hm : More L F G) (hN : Meant G) : ∀ (cs : Comps) (k : Nat) (x : TLV) (w w' : OVal),
    wdecAlt L F cs k x (some w) → wdecAlt L' G cs k x (some w') → Refines w w'
  | .nil, _, _, _, _, h, _ => by simp [wdecAlt, fail] at h
  | .cons fld t cs, k, x, w, w', h, h' => by
    simp only [wdecAlt] at h h'
    split at h
    · rename_i hc
      rw [if_pos hc] at h'
      simp only [bind_iff, ret_iff] at h h'
      obtain ⟨v, h1, rfl⟩ := h
      obtain ⟨v', h1', rfl⟩ := h'
      exact .alt _ _ _ (wdecT_more hL hm hN t x v v' h1 h1')
    · rename_i hc
      rw [if_neg hc] at h'
      exact wdecAlt_more hL hm hN cs (k + 1) x w w' h h'
end

end Asn1
end Verif
