import Verif.Asn1.OpenSound
import Verif.Asn1.Sound
import Verif.Spec.Governor

/-!
# When decoding with open types succeeds
-/

namespace Verif
namespace Asn1

theorem admits_comp {f : Field} {t : Ty} {cs : Comps} {v : Val} {vs : Vals} (h : (Comps.cons f t cs).admits (.cons v vs) = true) :
    (f.mode.isReq = true → t.admits v = true) ∧ (f.mode.isOpt = true → v = .absent ∨ t.admits v = true) ∧ cs.admits vs = true := by
  simp only [Comps.admits, Bool.and_eq_true] at h
  refine ⟨?_, ?_, h.2⟩
  · intro hr; cases hm : f.mode <;> simp_all [Mode.isReq]
  · intro ho; cases hm : f.mode <;> simp_all [Mode.isOpt]

theorem governor_found {D : Registry} {name : String} : ∀ {cs : Comps} {vs : Vals} {ws : OVals}, PreC D cs vs ws →
    cs.admits vs = true → selects (cs.find name) = true →
    ∃ g, governor name cs ws = some g ∧ fieldVal name cs vs = some g
  | .nil, .nil, .nil, _, _, h => by simp [Comps.find, selects] at h
  | .cons f t cs, .cons v vs, .cons w ws, hp, ha, h => by
    obtain ⟨a1, _, a3⟩ := admits_comp ha
    simp only [Comps.find] at h
    by_cases hn : f.name = name
    · rw [if_pos hn] at h
      have key : f.mode.isReq = true ∧ ∃ k a, t = .prim k a ∧ (k = .oid ∨ k = .integer) := by
        cases t with
        | prim k a => cases k <;> simp [selects] at h <;> exact ⟨h, _, a, rfl, by simp⟩
        | _ => simp [selects] at h
      obtain ⟨hr, k, a, ht, hk⟩ := key
      subst ht
      have hw : w = .leaf v := by
        rcases hp.1 with ⟨h1, _⟩ | h1
        · cases hm : f.mode <;> simp_all [Mode.isReq, Mode.missing]
        · cases h1 false; rfl
      have hv : v ≠ .absent := by
        rintro rfl
        have := a1 hr
        rcases hk with rfl | rfl <;> simp [Ty.admits, primShape, primLegal] at this
      refine ⟨v, ?_, by simp [fieldVal, hn]⟩
      simp [governor, hn, hw, hv]
    · rw [if_neg hn] at h
      obtain ⟨g, h1, h2⟩ := governor_found hp.2 a3 h
      exact ⟨g, by simp [governor, hn, h1], by simp [fieldVal, hn, h2]⟩
  | .nil, .cons _ _, _, h, _, _ => h.elim
  | .nil, .nil, .cons _ _, h, _, _ => h.elim
  | .cons _ _ _, .nil, _, h, _, _ => h.elim
  | .cons _ _ _, .cons _ _, .nil, h, _, _ => h.elim

theorem carries_octets {t : Ty} {v : Val} (hc : carries t = true) (ha : t.admits v = true) :
    (∃ k a, t = .prim k a) ∧ ∃ b, v = .octets b := by
  cases t with
  | prim k a =>
    refine ⟨⟨k, a, rfl⟩, ?_⟩
    cases k <;> simp [carries] at hc <;> cases v <;> simp [Ty.admits, primShape, primLegal] at ha ⊢
  | _ => simp [carries] at hc

theorem openVal_complete {D : Registry} {f : Ty → Bytes → Option OVal} {t u : Ty} {v : Val} {w : OVal}
    (hc : carriesAll t = true) (ha : t.admits v = true) (hp : Opens (plainSide D) false t v w)
    (hf : ∀ b ∈ octetsIn v, f u b ≠ none) : ∃ w', openVal f u w = some w' := by
  have one : ∀ {t : Ty} {v : Val} {w : OVal}, carries t = true → t.admits v = true → Opens (plainSide D) false t v w →
      ∃ b, v = .octets b ∧ w = .leaf (.octets b) := by
    intro t v w h1 h2 h3
    obtain ⟨⟨k, a, h4⟩, b, h5⟩ := carries_octets h1 h2
    subst h4; subst h5
    cases h3
    exact ⟨b, rfl, rfl⟩
  cases t with
  | of s a t =>
    simp only [carriesAll] at hc
    cases hp with
    | of _ _ _ _ vs ws he =>
    simp only [Ty.admits] at ha
    simp only [octetsIn] at hf
    have key : ∀ (vs : Vals) (ws : OVals), OpensE (plainSide D) false t vs ws → vs.every t.admits = true →
        (∀ b ∈ vs.toList.filterMap (fun v => match v with | .octets b => some b | _ => none), f u b ≠ none) →
        ∃ l, mapOpt (openOne f u) ws.toList = some l := by
      intro vs
      induction vs using Vals.rec (motive_1 := fun _ => True) with
      | nil => intro ws he _ _; cases he; exact ⟨[], rfl⟩
      | cons v vs _ ih =>
        intro ws he ha hf
        cases he with
        | cons _ _ _ w _ ws h1 h2 =>
        simp only [Vals.every, Bool.and_eq_true] at ha
        obtain ⟨b, e1, e2⟩ := one hc ha.1 h1
        subst e1; subst e2
        have hb := hf b (by simp [Vals.toList])
        obtain ⟨l, hl⟩ := ih ws h2 ha.2 (fun b' hb' => hf b' (by
          simp only [Vals.toList, List.filterMap_cons]
          exact List.mem_cons_of_mem _ hb'))
        cases hfb : f u b with
        | none => exact absurd hfb hb
        | some o => exact ⟨.opened u o :: l, by simp [OVals.toList, mapOpt, openOne, hfb, hl]⟩
      | _ => trivial
    obtain ⟨l, hl⟩ := key vs ws he ha hf
    exact ⟨_, by simp only [openVal]; rw [hl]; rfl⟩
  | prim k a =>
    obtain ⟨b, e1, e2⟩ := one (by simpa [carriesAll] using hc) ha hp
    subst e1; subst e2
    have hb := hf b (by simp [octetsIn])
    cases hfb : f u b with
    | none => exact absurd hfb hb
    | some o => exact ⟨.opened u o, by simp [openVal, openOne, hfb]⟩
  | seq => simp [carriesAll, carries] at hc
  | choice => simp [carriesAll, carries] at hc
  | bad => simp [carriesAll, carries] at hc

theorem openAll_complete {D : Registry} {f : Ty → Bytes → Option OVal} {ds : Comps} {us : Vals} {xs : OVals}
    (hd : PreC D ds us xs) (had : ds.admits us = true) : ∀ {cs : Comps} {vs : Vals} {ws : OVals}, PreC D cs vs ws →
    cs.admits vs = true → Comps.governedBy ds cs = true → (∀ p ∈ Comps.contents D ds us cs vs, f p.1 p.2 ≠ none) →
    ∃ ws', openAll D f ds xs cs ws = some ws'
  | .nil, .nil, .nil, _, _, _, _ => ⟨.nil, rfl⟩
  | .cons fld t cs, .cons v vs, .cons w ws, hp, ha, hg, hf => by
    obtain ⟨a1, a2, a3⟩ := admits_comp ha
    simp only [Comps.governedBy, Bool.and_eq_true] at hg
    simp only [Comps.contents] at hf
    obtain ⟨ws', h2⟩ := openAll_complete hd had hp.2 a3 hg.2 (fun p hp => hf p (by simp [hp]))
    have h1 : ∃ w', openField D f ds xs fld w = some w' := by
      simp only [openField]
      cases ho : fld.openType with
      | none => exact ⟨w, rfl⟩
      | some o =>
        have hg1 := hg.1
        simp only [ho, Bool.and_eq_true, Bool.or_eq_true] at hg1
        obtain ⟨⟨g1, g2⟩, g3⟩ := hg1
        dsimp only
        split
        · exact ⟨w, rfl⟩
        · rename_i hna
          obtain ⟨g, k1, k2⟩ := governor_found hd had g1
          rw [k1]
          dsimp only
          cases hD : D o.map g with
          | none => exact ⟨w, rfl⟩
          | some u =>
            dsimp only
            have hv : t.admits v = true := by
              rcases g3 with g3 | g3
              · exact a1 g3
              · rcases a2 g3 with h | h
                · have := hp.1.absent.2 h
                  simp [g3, this] at hna
                · exact h
            have hopen : Opens (plainSide D) false t v w := by
              rcases hp.1 with ⟨h3, h4⟩ | h3
              · cases hm : fld.mode with
                | req => simp [hm, Mode.missing] at h3
                | opt =>
                  simp [hm, Mode.missing] at h3
                  subst h3; subst h4
                  simp [hm, Mode.isOpt, OVal.isAbsent] at hna
                | dflt d => simp [hm, Mode.isReq, Mode.isOpt] at g3
              · exact h3 false
            refine openVal_complete g2 hv hopen (fun b hb => ?_)
            refine hf (u, b) ?_
            simp only [ho, k2, Option.bind_some, hD, List.mem_append]
            exact Or.inl (Or.inr (List.mem_map.2 ⟨b, hb, rfl⟩))
    obtain ⟨w', h1⟩ := h1
    exact ⟨.cons w' ws', by simp [openAll, h1, h2]⟩
  | .nil, .cons _ _, _, h, _, _, _ => h.elim
  | .nil, .nil, .cons _ _, h, _, _, _ => h.elim
  | .cons _ _ _, .nil, _, h, _, _, _ => h.elim
  | .cons _ _ _, .cons _ _, .nil, h, _, _, _ => h.elim

theorem mapOpt_complete {α β γ : Type} {p : α → Option β} {q : α → Option γ} : ∀ (xs : List α) (ys : List β), mapOpt p xs = some ys →
    (∀ x ∈ xs, ∀ y ∈ ys, p x = some y → ∃ z, q x = some z) → ∃ zs, mapOpt q xs = some zs
  | [], _, _, _ => ⟨[], rfl⟩
  | x :: xs, ys, h, hq => by
    simp only [mapOpt] at h
    split at h
    · rename_i y ys' h1 h2
      simp at h; subst h
      obtain ⟨z, hz⟩ := hq x (by simp) y (by simp) h1
      obtain ⟨zs, hzs⟩ := mapOpt_complete xs ys' h2 (fun x' hx y' hy => hq x' (by simp [hx]) y' (by simp [hy]))
      exact ⟨z :: zs, by simp [mapOpt, hz, hzs]⟩
    · simp at h

theorem decAlt_shape (cs : Comps) (k : Nat) (x : TLV) (v : Val) (h : decAlt cs k x = some v) : ∃ i v', v = .alt (k + i) v' := by
  obtain ⟨i, w, h1, _⟩ := decAlt_admits cs k x v h
  exact ⟨i, w, h1⟩

mutual
theorem contents_closed (D : Registry) : ∀ (t : Ty) (v : Val), t.each Ty.closed = true → t.contents D v = []
  | .prim _ _, _, _ => by simp [Ty.contents]
  | .seq s a cs, .record vs, h => by
    simp only [Ty.each, Ty.closed, Bool.and_eq_true] at h
    simp only [Ty.contents]
    exact contentsC_closed D cs vs cs vs h.1 h.2
  | .of s a t, .list vs, h => by
    simp only [Ty.each, Bool.and_eq_true] at h
    simp only [Ty.contents, List.flatMap_eq_nil_iff]
    exact fun v _ => contents_closed D t v h.2
  | .choice a cs, .alt i v, h => by
    simp only [Ty.each, Bool.and_eq_true] at h
    simp only [Ty.contents]
    exact contentsA_closed D cs i v h.2
  | .seq _ _ _, .absent, _ | .seq _ _ _, .int _, _ | .seq _ _ _, .bits _, _ | .seq _ _ _, .octets _, _ | .seq _ _ _, .null, _
  | .seq _ _ _, .oid _, _ | .seq _ _ _, .str _, _ | .seq _ _ _, .list _, _ | .seq _ _ _, .alt _ _, _ => by simp [Ty.contents]
  | .of _ _ _, .absent, _ | .of _ _ _, .int _, _ | .of _ _ _, .bits _, _ | .of _ _ _, .octets _, _ | .of _ _ _, .null, _
  | .of _ _ _, .oid _, _ | .of _ _ _, .str _, _ | .of _ _ _, .record _, _ | .of _ _ _, .alt _ _, _ => by simp [Ty.contents]
  | .choice _ _, .absent, _ | .choice _ _, .int _, _ | .choice _ _, .bits _, _ | .choice _ _, .octets _, _ | .choice _ _, .null, _
  | .choice _ _, .oid _, _ | .choice _ _, .str _, _ | .choice _ _, .record _, _ | .choice _ _, .list _, _ => by simp [Ty.contents]
  | .bad _, _, _ => by simp [Ty.contents]
theorem contentsC_closed (D : Registry) (ds : Comps) (us : Vals) : ∀ (cs : Comps) (vs : Vals), cs.noOpen = true →
    cs.each Ty.closed = true → Comps.contents D ds us cs vs = []
  | .nil, _, _, _ => by simp [Comps.contents]
  | .cons _ _ _, .nil, _, _ => by simp [Comps.contents]
  | .cons f t cs, .cons v vs, h1, h2 => by
    simp only [Comps.noOpen, Bool.and_eq_true, Option.isNone_iff_eq_none] at h1
    simp only [Comps.each, Bool.and_eq_true] at h2
    simp only [Comps.contents, contents_closed D t v h2.1, h1.1, contentsC_closed D ds us cs vs h1.2 h2.2, List.append_nil]
theorem contentsA_closed (D : Registry) : ∀ (cs : Comps) (i : Nat) (v : Val), cs.each Ty.closed = true → cs.contentsAlt D i v = []
  | .nil, _, _, _ => by simp [Comps.contentsAlt]
  | .cons f t cs, 0, v, h => by
    simp only [Comps.each, Bool.and_eq_true] at h
    simp only [Comps.contentsAlt]
    exact contents_closed D t v h.1
  | .cons f t cs, i + 1, v, h => by
    simp only [Comps.each, Bool.and_eq_true] at h
    simp only [Comps.contentsAlt]
    exact contentsA_closed D cs i v h.2
end

mutual
theorem odecT_complete {D : Registry} {f : Ty → Bytes → Option OVal} (hr : Right D f) : ∀ (t : Ty) (x : TLV) (v : Val),
    t.each Ty.governed = true → decT t x = some v → (∀ p ∈ t.contents D v, f p.1 p.2 ≠ none) →
    ∃ w, odecT D f t x = some w
  | .prim k a, x, v, _, h, _ => by
    simp only [decT] at h
    exact ⟨.leaf v, by simp [odecT, h]⟩
  | .seq s a cs, x, v, hg, h, hf => by
    simp only [Ty.each, Bool.and_eq_true] at hg
    have hadm := decT_admits _ _ _ h
    simp only [decT] at h
    split at h
    · simp at h
    · rename_i xs hx
      split at h
      · simp at h
      · rename_i vs hvs
        split at h
        · rename_i hspec
          simp at h; subst h
          simp only [Ty.admits, Bool.and_eq_true] at hadm
          simp only [Ty.contents] at hf
          have hpre : ∃ ws, (if s then (if xs.all cs.matches then odecSet D f cs xs else none) else odecComps D f cs xs) = some ws ∧
              PreC D cs vs ws := by
            cases s with
            | false =>
              simp only [Bool.false_eq_true, if_false] at hvs ⊢
              obtain ⟨ws, h1⟩ := odecComps_complete hr cs xs vs cs vs hg.2 hvs hf
              obtain ⟨vs', h2, h3⟩ := odecComps_sound hr cs xs ws h1
              rw [hvs] at h2; cases h2
              exact ⟨ws, h1, h3⟩
            | true =>
              simp only [if_true] at hvs ⊢
              split at hvs
              · rename_i hall
                rw [if_pos hall]
                have hcl := hg.1
                simp only [Ty.governed, Bool.and_eq_true] at hcl
                obtain ⟨ws, h1⟩ := odecSet_complete hr cs xs vs hcl.2 hg.2 hvs
                obtain ⟨vs', h2, h3⟩ := odecSet_sound hr cs xs ws h1
                rw [hvs] at h2; cases h2
                exact ⟨ws, h1, h3⟩
              · simp at hvs
          obtain ⟨ws, h1, h2⟩ := hpre
          simp only [odecT, hx, h1]
          cases hno : cs.noOpen with
          | true =>
            rw [hno] at hspec
            simp only [Bool.not_true, Bool.false_or] at hspec
            exact ⟨.record ws, by simp [PreC.names h2, hspec]⟩
          | false =>
            have hgov : cs.governedBy cs = true := by
              have := hg.1
              cases s <;> simp_all [Ty.governed]
            obtain ⟨ws', h3⟩ := openAll_complete h2 hadm.1 h2 hadm.1 hgov hf
            exact ⟨.record ws', by simp [h3]⟩
        · simp at h
  | .of s a t, x, v, hg, h, hf => by
    simp only [Ty.each, Bool.and_eq_true] at hg
    simp only [decT] at h
    split at h
    · simp at h
    · rename_i xs hx
      split at h
      · simp at h
      · rename_i vs hvs
        simp at h; subst h
        simp only [Ty.contents, Vals.toList_ofList] at hf
        obtain ⟨ws, hws⟩ := mapOpt_complete (q := odecT D f t) xs vs hvs (fun x' _ y hy hxy =>
          odecT_complete hr t x' y hg.2 hxy (fun p hp => hf p (List.mem_flatMap.2 ⟨y, hy, hp⟩)))
        exact ⟨.list (.ofList ws), by simp [odecT, hx, hws]⟩
  | .choice a cs, x, v, hg, h, hf => by
    simp only [Ty.each, Bool.and_eq_true] at hg
    simp only [decT] at h
    simp only [odecT]
    cases ht : a.tags with
    | nil =>
      rw [ht] at h
      obtain ⟨i, v', e⟩ := decAlt_shape cs 0 x v h
      subst e
      exact odecAlt_complete hr cs 0 i x v' hg.2 h (by simpa [Ty.contents] using hf)
    | cons t1 ts =>
      rw [ht] at h
      dsimp only at h ⊢
      cases hu : unwrap (t1 :: ts).reverse x with
      | none => rw [hu] at h; simp at h
      | some y =>
        rw [hu] at h
        dsimp only at h ⊢
        cases hz : readTLV y.content with
        | none => rw [hz] at h; simp at h
        | some p =>
          rw [hz] at h
          dsimp only at h ⊢
          obtain ⟨i, v', e⟩ := decAlt_shape cs 0 p.1 v h
          subst e
          exact odecAlt_complete hr cs 0 i p.1 v' hg.2 h (by simpa [Ty.contents] using hf)
  | .bad _, _, _, _, h, _ => by simp [decT] at h
theorem odecComps_complete {D : Registry} {f : Ty → Bytes → Option OVal} (hr : Right D f) : ∀ (cs : Comps) (xs : List TLV) (vs : Vals)
    (ds : Comps) (us : Vals), cs.each Ty.governed = true → decComps cs xs = some vs →
    (∀ p ∈ Comps.contents D ds us cs vs, f p.1 p.2 ≠ none) → ∃ ws, odecComps D f cs xs = some ws
  | .nil, [], _, _, _, _, _, _ => ⟨.nil, by simp [odecComps]⟩
  | .nil, _ :: _, _, _, _, _, h, _ => by simp [decComps] at h
  | .cons fld t cs, [], vs, ds, us, hg, h, hf => by
    simp only [Comps.each, Bool.and_eq_true] at hg
    simp only [decComps] at h
    split at h
    · rename_i v vs' h1 h2
      simp at h; subst h
      simp only [Comps.contents] at hf
      obtain ⟨ws, h3⟩ := odecComps_complete hr cs [] vs' ds us hg.2 h2 (fun p hp => hf p (by simp [hp]))
      exact ⟨.cons (.leaf v) ws, by simp [odecComps, h1, h3]⟩
    · simp at h
  | .cons fld t cs, x :: xs, vs, ds, us, hg, h, hf => by
    simp only [Comps.each, Bool.and_eq_true] at hg
    simp only [decComps] at h
    split at h
    · rename_i hc
      split at h
      · rename_i v vs' h1 h2
        simp at h; subst h
        simp only [Comps.contents] at hf
        obtain ⟨ws, h3⟩ := odecComps_complete hr cs xs vs' ds us hg.2 h2 (fun p hp => hf p (by simp [hp]))
        obtain ⟨w, h4⟩ := odecT_complete hr t x v hg.1 h1 (fun p hp => hf p (by simp [hp]))
        exact ⟨.cons w ws, by simp only [odecComps]; rw [if_pos hc]; simp [h4, h3]⟩
      · simp at h
    · rename_i hc
      split at h
      · rename_i v vs' h1 h2
        simp at h; subst h
        simp only [Comps.contents] at hf
        obtain ⟨ws, h3⟩ := odecComps_complete hr cs (x :: xs) vs' ds us hg.2 h2 (fun p hp => hf p (by simp [hp]))
        exact ⟨.cons (.leaf v) ws, by simp only [odecComps]; rw [if_neg hc]; simp [h1, h3]⟩
      · simp at h
theorem odecSet_complete {D : Registry} {f : Ty → Bytes → Option OVal} (hr : Right D f) : ∀ (cs : Comps) (xs : List TLV) (vs : Vals),
    cs.each Ty.closed = true → cs.each Ty.governed = true → decSet cs xs = some vs → ∃ ws, odecSet D f cs xs = some ws
  | .nil, _, _, _, _, _ => ⟨.nil, by simp [odecSet]⟩
  | .cons fld t cs, xs, vs, hc, hg, h => by
    simp only [Comps.each, Bool.and_eq_true] at hc hg
    simp only [decSet] at h
    split at h
    · rename_i us vs' h1 h2
      obtain ⟨ws, h3⟩ := odecSet_complete hr cs xs vs' hc.2 hg.2 h2
      obtain ⟨us', h4⟩ := mapOpt_complete (q := odecT D f t) _ us h1 (fun x _ y _ hxy =>
        odecT_complete hr t x y hg.1 hxy (by rw [contents_closed D t y hc.1]; simp))
      simp only [odecSet, h4, h3]
      cases hl : us'.getLast? with
      | some w => exact ⟨_, rfl⟩
      | none =>
        dsimp only
        have hu : us = [] := by
          rw [List.getLast?_eq_none_iff] at hl
          rw [mapOpt_all2] at h1 h4
          have e1 := all2_length h1
          have e2 := all2_length h4
          rw [hl, List.length_nil] at e2
          exact List.length_eq_zero_iff.1 (by omega)
        rw [hu] at h
        simp only [List.getLast?_nil] at h
        split at h
        · rename_i w hw
          rw [hw]
          exact ⟨_, rfl⟩
        · simp at h
    · simp at h
theorem odecAlt_complete {D : Registry} {f : Ty → Bytes → Option OVal} (hr : Right D f) : ∀ (cs : Comps) (k i : Nat) (x : TLV) (v : Val),
    cs.each Ty.governed = true → decAlt cs k x = some (.alt (k + i) v) → (∀ p ∈ cs.contentsAlt D i v, f p.1 p.2 ≠ none) →
    ∃ w, odecAlt D f cs k x = some w
  | .nil, _, _, _, _, _, h, _ => by simp [decAlt] at h
  | .cons fld t cs, k, i, x, v, hg, h, hf => by
    simp only [Comps.each, Bool.and_eq_true] at hg
    simp only [decAlt] at h
    simp only [odecAlt]
    split at h
    · rename_i hm
      rw [if_pos hm]
      split at h
      · rename_i v' h1
        simp at h
        obtain ⟨h2, h3⟩ := h
        have hi : i = 0 := by omega
        subst hi; subst h3
        obtain ⟨w, hw⟩ := odecT_complete hr t x v' hg.1 h1 (by simpa [Comps.contentsAlt] using hf)
        exact ⟨.alt k w, by rw [hw]⟩
      · simp at h
    · rename_i hm
      rw [if_neg hm]
      cases i with
      | zero =>
        obtain ⟨j, v', e⟩ := decAlt_shape cs (k + 1) x _ h
        simp at e
        omega
      | succ i =>
        exact odecAlt_complete hr cs (k + 1) i x v hg.2 (by rw [h]; congr 2; omega) (by simpa [Comps.contentsAlt] using hf)
end

end Asn1
end Verif
