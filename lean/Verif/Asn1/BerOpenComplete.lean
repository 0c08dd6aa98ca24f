import Verif.Asn1.BerOpenSound
import Verif.Asn1.OpenComplete
import Verif.Asn1.BasicAdmits

/-!
# When decoding BER with open types succeeds
-/

namespace Verif
namespace Asn1
namespace BerOpen

theorem governor_found {D : Registry} {name : String} : ∀ {cs : Comps} {vs : Vals} {ws : OVals}, PreC D cs vs ws →
    cs.admits vs = true → selects (cs.find name) = true →
    ∃ g, governor name cs ws = some g ∧ fieldVal name cs vs = some g
  | .nil, .nil, .nil, _, _, h => by simp [Comps.find, selects] at h
  | .cons f t cs, .cons v vs, .cons w ws, hp, ha, h => by
    obtain ⟨a1, _, a3⟩ := admits_comp ha
    simp only [Comps.find] at h
    by_cases hn : f.name = name
    · rw [if_pos hn] at h
      have key : f.mode.isReq = true ∧ ∃ k a, t = .prim k a ∧ (k = .oid ∨ k = .integer) := by
        cases t with
        | prim k a => cases k <;> simp [selects] at h <;> exact ⟨h, _, a, rfl, by simp⟩
        | _ => simp [selects] at h
      obtain ⟨hr, k, a, ht, hk⟩ := key
      subst ht
      have hw : w = .leaf v := by
        rcases hp.1 with ⟨h1, _⟩ | h1
        · cases hm : f.mode <;> simp_all [Mode.isReq, Mode.missing]
        · cases h1; rfl
      have hv : v ≠ .absent := by
        rintro rfl
        have := a1 hr
        rcases hk with rfl | rfl <;> simp [Ty.admits, primShape, primLegal] at this
      refine ⟨v, ?_, by simp [fieldVal, hn]⟩
      simp [governor, hn, hw, hv]
    · rw [if_neg hn] at h
      obtain ⟨g, h1, h2⟩ := governor_found hp.2 a3 h
      exact ⟨g, by simp [governor, hn, h1], by simp [fieldVal, hn, h2]⟩
  | .nil, .cons _ _, _, h, _, _ => h.elim
  | .nil, .nil, .cons _ _, h, _, _ => h.elim
  | .cons _ _ _, .nil, _, h, _, _ => h.elim
  | .cons _ _ _, .cons _ _, .nil, h, _, _ => h.elim

theorem openVal_complete {D : Registry} {f : Ty → Bytes → Option OVal} {t u : Ty} {v : Val} {w : OVal}
    (hc : carriesAll t = true) (ha : t.admits v = true) (hp : Opens D t v w)
    (hf : ∀ b ∈ octetsIn v, f u b ≠ none) : ∃ w', openVal f u w = some w' := by
  have one : ∀ {t : Ty} {v : Val} {w : OVal}, carries t = true → t.admits v = true → Opens D t v w →
      ∃ b, v = .octets b ∧ w = .leaf (.octets b) := by
    intro t v w h1 h2 h3
    obtain ⟨⟨k, a, h4⟩, b, h5⟩ := carries_octets h1 h2
    subst h4; subst h5
    cases h3
    exact ⟨b, rfl, rfl⟩
  cases t with
  | of s a t =>
    simp only [carriesAll] at hc
    cases hp with
    | of _ _ _ vs ws he =>
    simp only [Ty.admits] at ha
    simp only [octetsIn] at hf
    have key : ∀ (vs : Vals) (ws : OVals), OpensE D t vs ws → vs.every t.admits = true →
        (∀ b ∈ vs.toList.filterMap (fun v => match v with | .octets b => some b | _ => none), f u b ≠ none) →
        ∃ l, mapOpt (openOne f u) ws.toList = some l := by
      intro vs
      induction vs using Vals.rec (motive_1 := fun _ => True) with
      | nil => intro ws he _ _; cases he; exact ⟨[], rfl⟩
      | cons v vs _ ih =>
        intro ws he ha hf
        cases he with
        | cons _ _ w _ ws h1 h2 =>
        simp only [Vals.every, Bool.and_eq_true] at ha
        obtain ⟨b, e1, e2⟩ := one hc ha.1 h1
        subst e1; subst e2
        have hb := hf b (by simp [Vals.toList])
        obtain ⟨l, hl⟩ := ih ws h2 ha.2 (fun b' hb' => hf b' (by
          simp only [Vals.toList, List.filterMap_cons]
          exact List.mem_cons_of_mem _ hb'))
        cases hfb : f u b with
        | none => exact absurd hfb hb
        | some o => exact ⟨.opened u o :: l, by simp [OVals.toList, mapOpt, openOne, hfb, hl]⟩
      | _ => trivial
    obtain ⟨l, hl⟩ := key vs ws he ha hf
    exact ⟨_, by simp only [openVal]; rw [hl]; rfl⟩
  | prim k a =>
    obtain ⟨b, e1, e2⟩ := one (by simpa [carriesAll] using hc) ha hp
    subst e1; subst e2
    have hb := hf b (by simp [octetsIn])
    cases hfb : f u b with
    | none => exact absurd hfb hb
    | some o => exact ⟨.opened u o, by simp [openVal, openOne, hfb]⟩
  | seq => simp [carriesAll, carries] at hc
  | choice => simp [carriesAll, carries] at hc
  | bad => simp [carriesAll, carries] at hc

theorem openAll_complete {D : Registry} {f : Ty → Bytes → Option OVal} {ds : Comps} {us : Vals} {xs : OVals}
    (ind : Bool) (hd : PreC D ds us xs) (had : ds.admits us = true) : ∀ {cs : Comps} {vs : Vals} {ws : OVals}, PreC D cs vs ws →
    cs.admits vs = true → Comps.governedBy ds cs = true → (∀ p ∈ Comps.contents D ds us cs vs, f p.1 p.2 ≠ none) →
    ∃ ws', openAll D f ind ds xs cs ws = some ws'
  | .nil, .nil, .nil, _, _, _, _ => ⟨.nil, rfl⟩
  | .cons fld t cs, .cons v vs, .cons w ws, hp, ha, hg, hf => by
    obtain ⟨a1, a2, a3⟩ := admits_comp ha
    simp only [Comps.governedBy, Bool.and_eq_true] at hg
    simp only [Comps.contents] at hf
    obtain ⟨ws', h2⟩ := openAll_complete ind hd had hp.2 a3 hg.2 (fun p hp => hf p (by simp [hp]))
    have h1 : ∃ w', openField D f ind ds xs fld w = some w' := by
      simp only [openField]
      cases ho : fld.openType with
      | none => exact ⟨w, rfl⟩
      | some o =>
        have hg1 := hg.1
        simp only [ho, Bool.and_eq_true, Bool.or_eq_true] at hg1
        obtain ⟨⟨g1, g2⟩, g3⟩ := hg1
        dsimp only
        split
        · exact ⟨w, rfl⟩
        · rename_i hna
          obtain ⟨g, k1, k2⟩ := governor_found hd had g1
          rw [k1]
          dsimp only
          cases hD : D o.map g with
          | none => exact ⟨w, rfl⟩
          | some u =>
            dsimp only
            split
            · exact ⟨w, rfl⟩
            have hv : t.admits v = true := by
              rcases g3 with g3 | g3
              · exact a1 g3
              · rcases a2 g3 with h | h
                · have := hp.1.absent.2 h
                  simp [g3, this] at hna
                · exact h
            have hopen : Opens D t v w := by
              rcases hp.1 with ⟨h3, h4⟩ | h3
              · cases hm : fld.mode with
                | req => simp [hm, Mode.missing] at h3
                | opt =>
                  simp [hm, Mode.missing] at h3
                  subst h3; subst h4
                  simp [hm, Mode.isOpt, OVal.isAbsent] at hna
                | dflt d => simp [hm, Mode.isReq, Mode.isOpt] at g3
              · exact h3
            refine openVal_complete g2 hv hopen (fun b hb => ?_)
            refine hf (u, b) ?_
            simp only [ho, k2, Option.bind_some, hD, List.mem_append]
            exact Or.inl (Or.inr (List.mem_map.2 ⟨b, hb, rfl⟩))
    obtain ⟨w', h1⟩ := h1
    exact ⟨.cons w' ws', by simp [openAll, h1, h2]⟩
  | .nil, .cons _ _, _, h, _, _, _ => h.elim
  | .nil, .nil, .cons _ _, h, _, _, _ => h.elim
  | .cons _ _ _, .nil, _, h, _, _, _ => h.elim
  | .cons _ _ _, .cons _ _, .nil, h, _, _, _ => h.elim

theorem bdecAlt_shape (cs : Comps) (k : Nat) (x : Elt) (v : Val) (h : bdecAlt cs k x = some v) : ∃ i v', v = .alt (k + i) v' := by
  obtain ⟨i, w, h1, _⟩ := bdecAlt_admits cs k x v h
  exact ⟨i, w, h1⟩

mutual
theorem odecT_complete {D : Registry} {f : Ty → Bytes → Option OVal} (hr : Right D f) : ∀ (t : Ty) (x : Elt) (v : Val),
    t.each Ty.governed = true → bdecT t x = some v → (∀ p ∈ t.contents D v, f p.1 p.2 ≠ none) →
    ∃ w, odecT D f t x = some w
  | .prim k a, x, v, _, h, _ => by
    simp only [bdecT] at h
    exact ⟨.leaf v, by simp [odecT, h]⟩
  | .seq s a cs, x, v, hg, h, hf => by
    simp only [Ty.each, Bool.and_eq_true] at hg
    have hadm := bdecT_admits _ _ _ h
    simp only [bdecT] at h
    split at h
    · simp at h
    · rename_i xs hx
      split at h
      · simp at h
      · rename_i vs hvs
        split at h
        · rename_i hspec
          simp at h; subst h
          simp only [Ty.admits, Bool.and_eq_true] at hadm
          simp only [Ty.contents] at hf
          have hpre : ∃ ws, (if s then (if xs.all (fun x => cs.matches x.tlv) then odecSet D f cs xs else none) else odecComps D f cs xs) = some ws ∧
              PreC D cs vs ws := by
            cases s with
            | false =>
              simp only [Bool.false_eq_true, if_false] at hvs ⊢
              obtain ⟨ws, h1⟩ := odecComps_complete hr cs xs vs cs vs hg.2 hvs hf
              obtain ⟨vs', h2, h3⟩ := odecComps_sound hr cs xs ws h1
              rw [hvs] at h2; cases h2
              exact ⟨ws, h1, h3⟩
            | true =>
              simp only [if_true] at hvs ⊢
              split at hvs
              · rename_i hall
                rw [if_pos hall]
                have hcl := hg.1
                simp only [Ty.governed, Bool.and_eq_true] at hcl
                obtain ⟨ws, h1⟩ := odecSet_complete hr cs xs vs hcl.2 hg.2 hvs
                obtain ⟨vs', h2, h3⟩ := odecSet_sound hr cs xs ws h1
                rw [hvs] at h2; cases h2
                exact ⟨ws, h1, h3⟩
              · simp at hvs
          obtain ⟨ws, h1, h2⟩ := hpre
          simp only [odecT, hx, h1]
          cases hno : cs.noOpen with
          | true =>
            rw [hno] at hspec
            simp only [Bool.not_true, Bool.false_or] at hspec
            exact ⟨.record ws, by simp [PreC.names h2, hspec]⟩
          | false =>
            have hgov : cs.governedBy cs = true := by
              have := hg.1
              cases s <;> simp_all [Ty.governed]
            obtain ⟨ws', h3⟩ := openAll_complete (innerIndef a x) h2 hadm.1 h2 hadm.1 hgov hf
            exact ⟨.record ws', by simp [h3]⟩
        · simp at h
  | .of s a t, x, v, hg, h, hf => by
    simp only [Ty.each, Bool.and_eq_true] at hg
    simp only [bdecT] at h
    split at h
    · simp at h
    · rename_i xs hx
      split at h
      · simp at h
      · rename_i vs hvs
        simp at h; subst h
        simp only [Ty.contents, Vals.toList_ofList] at hf
        obtain ⟨ws, hws⟩ := mapOpt_complete (q := odecT D f t) xs vs hvs (fun x' _ y hy hxy =>
          odecT_complete hr t x' y hg.2 hxy (fun p hp => hf p (List.mem_flatMap.2 ⟨y, hy, hp⟩)))
        exact ⟨.list (.ofList ws), by simp [odecT, hx, hws]⟩
  | .choice a cs, x, v, hg, h, hf => by
    simp only [Ty.each, Bool.and_eq_true] at hg
    simp only [bdecT] at h
    simp only [odecT]
    cases ht : a.tags with
    | nil =>
      rw [ht] at h
      obtain ⟨i, v', e⟩ := bdecAlt_shape cs 0 x v h
      subst e
      exact odecAlt_complete hr cs 0 i x v' hg.2 h (by simpa [Ty.contents] using hf)
    | cons t1 ts =>
      rw [ht] at h
      dsimp only at h ⊢
      cases hu : unwrapE (t1 :: ts).reverse x with
      | none => rw [hu] at h; simp at h
      | some y =>
        rw [hu] at h
        dsimp only at h ⊢
        cases hz : y.inner with
        | none => rw [hz] at h; simp at h
        | some z =>
          rw [hz] at h
          dsimp only at h ⊢
          obtain ⟨i, v', e⟩ := bdecAlt_shape cs 0 z v h
          subst e
          exact odecAlt_complete hr cs 0 i z v' hg.2 h (by simpa [Ty.contents] using hf)
  | .bad _, _, _, _, h, _ => by simp [bdecT] at h
theorem odecComps_complete {D : Registry} {f : Ty → Bytes → Option OVal} (hr : Right D f) : ∀ (cs : Comps) (xs : List Elt) (vs : Vals)
    (ds : Comps) (us : Vals), cs.each Ty.governed = true → bdecComps cs xs = some vs →
    (∀ p ∈ Comps.contents D ds us cs vs, f p.1 p.2 ≠ none) → ∃ ws, odecComps D f cs xs = some ws
  | .nil, [], _, _, _, _, _, _ => ⟨.nil, by simp [odecComps]⟩
  | .nil, _ :: _, _, _, _, _, h, _ => by simp [bdecComps] at h
  | .cons fld t cs, [], vs, ds, us, hg, h, hf => by
    simp only [Comps.each, Bool.and_eq_true] at hg
    simp only [bdecComps] at h
    split at h
    · rename_i v vs' h1 h2
      simp at h; subst h
      simp only [Comps.contents] at hf
      obtain ⟨ws, h3⟩ := odecComps_complete hr cs [] vs' ds us hg.2 h2 (fun p hp => hf p (by simp [hp]))
      exact ⟨.cons (.leaf v) ws, by simp [odecComps, h1, h3]⟩
    · simp at h
  | .cons fld t cs, x :: xs, vs, ds, us, hg, h, hf => by
    simp only [Comps.each, Bool.and_eq_true] at hg
    simp only [bdecComps] at h
    split at h
    · rename_i hc
      split at h
      · rename_i v vs' h1 h2
        simp at h; subst h
        simp only [Comps.contents] at hf
        obtain ⟨ws, h3⟩ := odecComps_complete hr cs xs vs' ds us hg.2 h2 (fun p hp => hf p (by simp [hp]))
        obtain ⟨w, h4⟩ := odecT_complete hr t x v hg.1 h1 (fun p hp => hf p (by simp [hp]))
        exact ⟨.cons w ws, by simp only [odecComps]; rw [if_pos hc]; simp [h4, h3]⟩
      · simp at h
    · rename_i hc
      split at h
      · rename_i v vs' h1 h2
        simp at h; subst h
        simp only [Comps.contents] at hf
        obtain ⟨ws, h3⟩ := odecComps_complete hr cs (x :: xs) vs' ds us hg.2 h2 (fun p hp => hf p (by simp [hp]))
        exact ⟨.cons (.leaf v) ws, by simp only [odecComps]; rw [if_neg hc]; simp [h1, h3]⟩
      · simp at h
theorem odecSet_complete {D : Registry} {f : Ty → Bytes → Option OVal} (hr : Right D f) : ∀ (cs : Comps) (xs : List Elt) (vs : Vals),
    cs.each Ty.closed = true → cs.each Ty.governed = true → bdecSet cs xs = some vs → ∃ ws, odecSet D f cs xs = some ws
  | .nil, _, _, _, _, _ => ⟨.nil, by simp [odecSet]⟩
  | .cons fld t cs, xs, vs, hc, hg, h => by
    simp only [Comps.each, Bool.and_eq_true] at hc hg
    simp only [bdecSet] at h
    split at h
    · rename_i us vs' h1 h2
      obtain ⟨ws, h3⟩ := odecSet_complete hr cs xs vs' hc.2 hg.2 h2
      obtain ⟨us', h4⟩ := mapOpt_complete (q := odecT D f t) _ us h1 (fun x _ y _ hxy =>
        odecT_complete hr t x y hg.1 hxy (by rw [contents_closed D t y hc.1]; simp))
      simp only [odecSet, h4, h3]
      cases hl : us'.getLast? with
      | some w => exact ⟨_, rfl⟩
      | none =>
        dsimp only
        have hu : us = [] := by
          rw [List.getLast?_eq_none_iff] at hl
          rw [mapOpt_all2] at h1 h4
          have e1 := all2_length h1
          have e2 := all2_length h4
          rw [hl, List.length_nil] at e2
          exact List.length_eq_zero_iff.1 (by omega)
        rw [hu] at h
        simp only [List.getLast?_nil] at h
        split at h
        · rename_i w hw
          rw [hw]
          exact ⟨_, rfl⟩
        · simp at h
    · simp at h
theorem odecAlt_complete {D : Registry} {f : Ty → Bytes → Option OVal} (hr : Right D f) : ∀ (cs : Comps) (k i : Nat) (x : Elt) (v : Val),
    cs.each Ty.governed = true → bdecAlt cs k x = some (.alt (k + i) v) → (∀ p ∈ cs.contentsAlt D i v, f p.1 p.2 ≠ none) →
    ∃ w, odecAlt D f cs k x = some w
  | .nil, _, _, _, _, _, h, _ => by simp [bdecAlt] at h
  | .cons fld t cs, k, i, x, v, hg, h, hf => by
    simp only [Comps.each, Bool.and_eq_true] at hg
    simp only [bdecAlt] at h
    simp only [odecAlt]
    split at h
    · rename_i hm
      rw [if_pos hm]
      split at h
      · rename_i v' h1
        simp at h
        obtain ⟨h2, h3⟩ := h
        have hi : i = 0 := by omega
        subst hi; subst h3
        obtain ⟨w, hw⟩ := odecT_complete hr t x v' hg.1 h1 (by simpa [Comps.contentsAlt] using hf)
        exact ⟨.alt k w, by rw [hw]⟩
      · simp at h
    · rename_i hm
      rw [if_neg hm]
      cases i with
      | zero =>
        obtain ⟨j, v', e⟩ := bdecAlt_shape cs (k + 1) x _ h
        simp at e
        omega
      | succ i =>
        exact odecAlt_complete hr cs (k + 1) i x v hg.2 (by rw [h]; congr 2; omega) (by simpa [Comps.contentsAlt] using hf)
end

end BerOpen
end Asn1
end Verif
