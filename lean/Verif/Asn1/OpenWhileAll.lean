import Verif.Asn1.OpenWhileMore
import Verif.Asn1.OpenFuel
import Verif.Asn1.OpenPlain

/-!
# Results are meanings of the octets, and those that say everything do not change
-/

namespace Verif
namespace Asn1

open Nd

/-! ## What is decoded can be decoded without any dictionary -/

/-- Dictionaries without entries. -/
def Registry.empty : Registry := fun _ _ => none

mutual
theorem contents_empty : ∀ (t : Ty) (v : Val), t.contents Registry.empty v = []
  | .prim _ _, _ => by simp [Ty.contents]
  | .seq _ _ cs, .record vs => by simp only [Ty.contents]; exact contentsC_empty cs vs cs vs
  | .of _ _ t, .list vs => by
    simp only [Ty.contents, List.flatMap_eq_nil_iff]
    exact fun v _ => contents_empty t v
  | .choice _ cs, .alt i v => by simp only [Ty.contents]; exact contentsA_empty cs i v
  | .bad _, _ => by simp [Ty.contents]
  | .seq _ _ _, .absent | .seq _ _ _, .int _ | .seq _ _ _, .bits _ | .seq _ _ _, .octets _ | .seq _ _ _, .null
  | .seq _ _ _, .oid _ | .seq _ _ _, .str _ | .seq _ _ _, .list _ | .seq _ _ _, .alt _ _ => by simp [Ty.contents]
  | .of _ _ _, .absent | .of _ _ _, .int _ | .of _ _ _, .bits _ | .of _ _ _, .octets _ | .of _ _ _, .null
  | .of _ _ _, .oid _ | .of _ _ _, .str _ | .of _ _ _, .record _ | .of _ _ _, .alt _ _ => by simp [Ty.contents]
  | .choice _ _, .absent | .choice _ _, .int _ | .choice _ _, .bits _ | .choice _ _, .octets _ | .choice _ _, .null
  | .choice _ _, .oid _ | .choice _ _, .str _ | .choice _ _, .record _ | .choice _ _, .list _ => by simp [Ty.contents]
theorem contentsC_empty (ds : Comps) (us : Vals) : ∀ (cs : Comps) (vs : Vals), Comps.contents Registry.empty ds us cs vs = []
  | .cons f t cs, .cons v vs => by
    simp only [Comps.contents, contents_empty t v, contentsC_empty ds us cs vs, List.nil_append, List.append_nil]
    cases f.openType with
    | none => rfl
    | some o =>
      dsimp only
      cases fieldVal o.governor ds us <;> rfl
  | .nil, _ => by simp [Comps.contents]
  | .cons _ _ _, .nil => by simp [Comps.contents]
theorem contentsA_empty : ∀ (cs : Comps) (i : Nat) (v : Val), cs.contentsAlt Registry.empty i v = []
  | .cons _ t _, 0, v => by simp only [Comps.contentsAlt]; exact contents_empty t v
  | .cons _ _ cs, i + 1, v => by simp only [Comps.contentsAlt]; exact contentsA_empty cs i v
  | .nil, _, _ => by simp [Comps.contentsAlt]
end

variable {L : Looks} {F G : Ty → Bytes → Nd OVal} {f : Ty → Bytes → Option OVal}

theorem steady_empty : Steady (fun _ => true) Registry.empty.looks G Registry.empty f :=
  ⟨fun _ _ _ => rfl, fun _ _ _ _ h => by simp [Registry.empty] at h⟩

theorem later_empty : Later Registry.empty.looks L := fun _ _ _ _ h => by simp [Registry.looks, Registry.empty, lift] at h

theorem more_empty : More Registry.empty.looks G F := fun _ _ _ _ _ _ h => by simp [Registry.looks, Registry.empty, lift] at h

/-- A decoder, for the statements. -/
def nothing : Ty → Bytes → Option OVal := fun _ _ => none

theorem odecComps_refined (hN : Meant F) {cs : Comps} {xs : List TLV} {vs ws : OVals} (h : odecComps Registry.empty nothing cs xs = some vs)
    (h' : wdecComps L F cs xs (some ws)) : RefinesL vs ws := by
  refine wdecComps_more (F := F) later_empty more_empty hN cs xs vs ws ?_ h'
  rw [wdecComps_det (steady_empty (f := nothing)) cs xs (Comps.each_useOnly_true cs), lift_iff]
  exact h

theorem odecSet_refined (hN : Meant F) {cs : Comps} {xs : List TLV} {vs ws : OVals} (h : odecSet Registry.empty nothing cs xs = some vs)
    (h' : wdecSet L F cs xs (some ws)) : RefinesL vs ws := by
  refine wdecSet_more (F := F) later_empty more_empty hN cs xs vs ws ?_ h'
  rw [wdecSet_det (steady_empty (f := nothing)) cs xs (Comps.each_useOnly_true cs), lift_iff]
  exact h

theorem odecT_refined (hN : Meant F) {t : Ty} {x : TLV} {v w : OVal} (h : odecT Registry.empty nothing t x = some v)
    (h' : wdecT L F t x (some w)) : Refines v w := by
  refine wdecT_more (F := F) later_empty more_empty hN t x v w ?_ h'
  rw [wdecT_det (steady_empty (f := nothing)) t x (Ty.useOnly_true t), lift_iff]
  exact h

theorem openAll_empty (ds : Comps) {us us' : OVals} (hd : RefinesL us us') (hdr : us'.raw) : ∀ (cs : Comps) {vs vs' ws : OVals},
    RefinesL vs vs' → vs'.raw → wopenAll L F ds us' cs vs' (some ws) → ∃ ws', openAll Registry.empty nothing ds us cs vs = some ws'
  | .nil, _, _, _, _, _, _ => ⟨.nil, by simp [openAll]⟩
  | .cons fld t cs, _, _, _, h, hr, hw => by
    cases h with
    | nil => exact ⟨.nil, by simp [openAll]⟩
    | cons v v' vs vs' h1 h2 =>
      simp only [wopenAll, bind_iff, ret_iff] at hw
      obtain ⟨w, e1, ws, e2, rfl⟩ := hw
      obtain ⟨ws', i1⟩ := openAll_empty ds hd hdr cs h2 hr.2 e2
      suffices ∃ w', openField Registry.empty nothing ds us fld v = some w' by
        obtain ⟨w', hw'⟩ := this
        exact ⟨.cons w' ws', by simp [openAll, hw', i1]⟩
      unfold wopenField at e1
      unfold openField
      cases ho : fld.openType with
      | none => exact ⟨v, rfl⟩
      | some o =>
        simp only [ho] at e1
        dsimp only
        rw [h1.absent hr.1]
        split
        · exact ⟨v, rfl⟩
        · rename_i ha
          rw [if_neg ha] at e1
          rw [governor_refines _ ds hd hdr]
          cases hg : governor o.governor ds us' with
          | none => simp [hg, fail] at e1
          | some g => exact ⟨v, rfl⟩

theorem mapOpt_of_map {α : Type} {p : α → Nd OVal} {q : α → Option OVal} : ∀ {xs : List α} {ys : List OVal},
    (∀ x ∈ xs, ∀ y, p x (some y) → ∃ z, q x = some z) → Nd.map p xs (some ys) → ∃ zs, mapOpt q xs = some zs
  | [], _, _, _ => ⟨[], rfl⟩
  | x :: xs, ys, h, hm => by
    obtain ⟨y, ys, rfl, h1, h2⟩ := map_cons_iff.1 hm
    obtain ⟨z, hz⟩ := h x (by simp) y h1
    obtain ⟨zs, hzs⟩ := mapOpt_of_map (fun x hx => h x (by simp [hx])) h2
    exact ⟨z :: zs, by simp [mapOpt, hz, hzs]⟩

mutual
theorem wdecT_plain (hN : Meant F) : ∀ (t : Ty) (x : TLV) (w : OVal), wdecT L F t x (some w) →
    ∃ v, odecT Registry.empty nothing t x = some v
  | .prim k a, x, w, h => by
    simp only [wdecT, lift_iff] at h
    exact ⟨w, by simpa [odecT] using h⟩
  | .seq s a cs, x, w, h => by
    simp only [wdecT, bind_iff, lift_iff] at h
    obtain ⟨xs, h1, vs, h2, h3⟩ := h
    have key : ∃ vs', (if s then (if xs.all cs.matches then odecSet Registry.empty nothing cs xs else none)
        else odecComps Registry.empty nothing cs xs) = some vs' ∧ RefinesL vs' vs ∧ vs.raw := by
      cases s with
      | false =>
        simp only [Bool.false_eq_true, if_false] at h2 ⊢
        obtain ⟨vs', hv⟩ := wdecComps_plain hN cs xs vs h2
        exact ⟨vs', hv, odecComps_refined hN hv h2, wdecComps_raw cs xs vs h2⟩
      | true =>
        simp only [if_true] at h2 ⊢
        split at h2
        · rename_i ha
          rw [if_pos ha]
          obtain ⟨vs', hv⟩ := wdecSet_plain hN cs xs vs h2
          exact ⟨vs', hv, odecSet_refined hN hv h2, wdecSet_raw cs xs vs h2⟩
        · simp [fail] at h2
    obtain ⟨vs', k1, k2, k3⟩ := key
    simp only [odecT, h1, k1]
    unfold wfinish at h3
    rw [presentNames_refines cs k2 k3]
    split at h3
    · rename_i hn
      simp only [hn, if_true]
      split at h3
      · rename_i ha
        exact ⟨_, by rw [if_pos ha]⟩
      · simp [fail] at h3
    · rename_i hn
      simp only [hn]
      simp only [bind_iff, ret_iff] at h3
      obtain ⟨ws, h4, rfl⟩ := h3
      obtain ⟨ws', h5⟩ := openAll_empty cs k2 k3 cs k2 k3 h4
      exact ⟨_, by rw [h5]; rfl⟩
  | .of s a t, x, w, h => by
    simp only [wdecT, bind_iff, ret_iff, lift_iff] at h
    obtain ⟨xs, h1, vs, h2, rfl⟩ := h
    obtain ⟨zs, hz⟩ := mapOpt_of_map (fun y _ w hw => wdecT_plain hN t y w hw) h2
    exact ⟨.list (.ofList zs), by simp [odecT, h1, hz]⟩
  | .choice a cs, x, w, h => by
    simp only [wdecT] at h
    simp only [odecT]
    cases ht : a.tags with
    | nil =>
      simp only [ht] at h
      exact wdecAlt_plain hN cs 0 x w h
    | cons hd tl =>
      simp only [ht, bind_iff, lift_iff] at h
      obtain ⟨z, h1, h2⟩ := h
      obtain ⟨y, h3, h4⟩ := Option.bind_eq_some_iff.1 h1
      obtain ⟨v, hv⟩ := wdecAlt_plain hN cs 0 z.1 w h2
      refine ⟨v, ?_⟩
      simp only [h3, h4, hv]
  | .bad _, _, _, h => by simp [wdecT, fail] at h
theorem wdecComps_plain (hN : Meant F) : ∀ (cs : Comps) (xs : List TLV) (ws : OVals), wdecComps L F cs xs (some ws) →
    ∃ vs, odecComps Registry.empty nothing cs xs = some vs
  | .nil, [], _, _ => ⟨.nil, by simp [odecComps]⟩
  | .nil, _ :: _, _, h => by simp [wdecComps, fail] at h
  | .cons fld t cs, [], _, h => by
    simp only [wdecComps, bind_iff, ret_iff, lift_iff] at h
    obtain ⟨v, h1, vs, h2, rfl⟩ := h
    obtain ⟨vs', h3⟩ := wdecComps_plain hN cs [] vs h2
    exact ⟨_, by simp only [odecComps, h1, h3]; rfl⟩
  | .cons fld t cs, x :: xs, _, h => by
    simp only [wdecComps] at h
    simp only [odecComps]
    split at h
    · rename_i hc
      rw [if_pos hc]
      simp only [bind_iff, ret_iff] at h
      obtain ⟨v, h1, vs, h2, rfl⟩ := h
      obtain ⟨v', h3⟩ := wdecT_plain hN t x v h1
      obtain ⟨vs', h4⟩ := wdecComps_plain hN cs xs vs h2
      exact ⟨_, by simp only [h3, h4]; rfl⟩
    · rename_i hc
      rw [if_neg hc]
      simp only [bind_iff, ret_iff, lift_iff] at h
      obtain ⟨v, h1, vs, h2, rfl⟩ := h
      obtain ⟨vs', h4⟩ := wdecComps_plain hN cs (x :: xs) vs h2
      exact ⟨_, by simp only [h1, h4]; rfl⟩
theorem wdecSet_plain (hN : Meant F) : ∀ (cs : Comps) (xs : List TLV) (ws : OVals), wdecSet L F cs xs (some ws) →
    ∃ vs, odecSet Registry.empty nothing cs xs = some vs
  | .nil, _, _, _ => ⟨.nil, by simp [odecSet]⟩
  | .cons fld t cs, xs, _, h => by
    simp only [wdecSet, bind_iff] at h
    obtain ⟨us, h1, vs, h2, h3⟩ := h
    obtain ⟨vs', h4⟩ := wdecSet_plain hN cs xs vs h2
    obtain ⟨us', h5⟩ := mapOpt_of_map (fun y _ w hw => wdecT_plain hN t y w hw) h1
    have hl : RefinesL (.ofList us') (.ofList us) := by
      have h6 : Nd.map (fun x => lift (odecT Registry.empty nothing t x)) (xs.filter t.matches) (some us') := by
        rw [map_lift (g := odecT Registry.empty nothing t) _ (fun _ _ => rfl), lift_iff]
        exact h5
      exact .of_maps (fun y _ a b ha hb => odecT_refined hN (lift_iff.1 ha) hb) h6 h1
    obtain ⟨_, l2⟩ := last_refines hl
    simp only [odecSet, h4, h5]
    rcases wlast_cases h3 with ⟨w, hu, _⟩ | ⟨hu, v, hv, _⟩
    · cases hu' : us'.getLast? with
      | none => rw [l2.1 hu'] at hu; simp at hu
      | some w' => exact ⟨_, rfl⟩
    · rw [l2.2 hu]
      exact ⟨_, by simp only [hv]; rfl⟩
theorem wdecAlt_plain (hN : Meant F) : ∀ (cs : Comps) (k : Nat) (x : TLV) (w : OVal), wdecAlt L F cs k x (some w) →
    ∃ v, odecAlt Registry.empty nothing cs k x = some v
  | .nil, _, _, _, h => by simp [wdecAlt, fail] at h
  | .cons fld t cs, k, x, w, h => by
    simp only [wdecAlt] at h
    simp only [odecAlt]
    split at h
    · rename_i hc
      rw [if_pos hc]
      simp only [bind_iff, ret_iff] at h
      obtain ⟨v, h1, rfl⟩ := h
      obtain ⟨v', h2⟩ := wdecT_plain hN t x v h1
      exact ⟨_, by simp only [h2]; rfl⟩
    · rename_i hc
      rw [if_neg hc]
      exact wdecAlt_plain hN cs (k + 1) x w h
end

/-- Whatever the looks find, the result is the plainly decoded value with some of its open type fields decoded. -/
theorem wdecode_meant (L : Looks) : ∀ (n : Nat) (t : Ty) (b : Bytes) (w : OVal) (r : Bytes), wdecode L n t b (some (w, r)) →
    ∃ v v', decode t b = some (v, r) ∧ v'.plain? = some v ∧ Refines v' w
  | 0, _, _, _, _, h => by simp [wdecode, fail] at h
  | n + 1, t, b, w, r, h => by
    simp only [wdecode, bind_iff, ret_iff, lift_iff, Prod.mk.injEq] at h
    obtain ⟨⟨x, r'⟩, h1, w', h2, rfl, rfl⟩ := h
    have hN : Meant (fun u c => (wdecode L n u c).bind (fun p => ret p.1)) := by
      intro u c w hw
      simp only [bind_iff, ret_iff] at hw
      obtain ⟨⟨w', r''⟩, h3, rfl⟩ := hw
      obtain ⟨v, v', e1, e2, e3⟩ := wdecode_meant L n u c _ _ h3
      exact ⟨v, r'', v', e1, e2, e3⟩
    obtain ⟨v', hv⟩ := wdecT_plain hN t x w h2
    have href := odecT_refined hN hv h2
    have ho : odecode Registry.empty 1 t b = some (v', r) := by
      show (match readTLV b with
        | none => none
        | some (x, rest) => match odecT Registry.empty nothing t x with
          | none => none
          | some v => some (v, rest)) = _
      simp only [h1, hv]
    obtain ⟨v, e1, e2⟩ := odecode_sound Registry.empty 1 t b v' r ho
    exact ⟨v, v', e1, (e2 false).plain_of (contents_empty t v), href⟩

/-- A result of later looks says more. -/
theorem wdecode_more {L L' : Looks} (hL : Later L L') : ∀ (n : Nat) (t : Ty) (b : Bytes) (w w' : OVal) (r r' : Bytes),
    wdecode L n t b (some (w, r)) → wdecode L' n t b (some (w', r')) → Refines w w' ∧ r = r'
  | 0, _, _, _, _, _, _, h, _ => by simp [wdecode, fail] at h
  | n + 1, t, b, w, w', r, r', h, h' => by
    simp only [wdecode, bind_iff, ret_iff, lift_iff, Prod.mk.injEq] at h h'
    obtain ⟨⟨x, r1⟩, h1, w1, h2, rfl, rfl⟩ := h
    obtain ⟨⟨x', r1'⟩, h1', w1', h2', rfl, rfl⟩ := h'
    rw [h1] at h1'
    simp only [Option.some.injEq, Prod.mk.injEq] at h1'
    obtain ⟨rfl, rfl⟩ := h1'
    refine ⟨wdecT_more hL ?_ ?_ t x w w' h2 h2', rfl⟩
    · intro m k u c a a' hm ha ha'
      simp only [bind_iff, ret_iff] at ha ha'
      obtain ⟨⟨p, q⟩, h3, rfl⟩ := ha
      obtain ⟨⟨p', q'⟩, h3', rfl⟩ := ha'
      exact (wdecode_more hL n u c _ _ _ _ h3 h3').1
    · intro u c w hw
      simp only [bind_iff, ret_iff] at hw
      obtain ⟨⟨w', r''⟩, h3, rfl⟩ := hw
      obtain ⟨v, v', e1, e2, e3⟩ := wdecode_meant L' n u c _ _ h3
      exact ⟨v, r'', v', e1, e2, e3⟩

end Asn1
end Verif
