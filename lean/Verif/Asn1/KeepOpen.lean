import Verif.Asn1.KeepEnc

/-!
# Encoding values with opened fields and `omitEmptyOptionals=False`
-/

namespace Verif
namespace Asn1

/-- OPTIONAL components of a SET are primitive. -/
def Comps.optPrim : Comps → Bool
  | .nil => true
  | .cons f t cs => (!f.mode.isOpt || (match t with | .prim _ _ => true | _ => false)) && cs.optPrim

mutual
/-- The SETs in it have only primitive OPTIONAL components, so that it does not matter that `omitEmptyOptionals` is not
for them. -/
def Ty.plainSets : Ty → Bool
  | .seq s _ cs => (!s || cs.optPrim) && cs.plainSets
  | .of _ _ t => t.plainSets
  | .choice _ cs => cs.plainSets
  | _ => true
def Comps.plainSets : Comps → Bool
  | .nil => true
  | .cons _ t cs => t.plainSets && cs.plainSets
end

theorem Comps.optPrim_quiet : ∀ cs : Comps, cs.optPrim = true → cs.optQuiet = true
  | .nil, _ => rfl
  | .cons f t cs, h => by
    simp only [Comps.optPrim, Comps.optQuiet, Bool.and_eq_true, Bool.or_eq_true] at h ⊢
    refine ⟨h.1.imp id ?_, Comps.optPrim_quiet cs h.2⟩
    intro ht
    cases t <;> simp at ht
    rfl

mutual
theorem Ty.plainSets_quiet : ∀ t : Ty, t.plainSets = true → t.quietSets = true
  | .prim _ _, _ => rfl
  | .seq s a cs, h => by
    simp only [Ty.plainSets, Ty.quietSets, Bool.and_eq_true, Bool.or_eq_true] at h ⊢
    exact ⟨h.1.imp id (Comps.optPrim_quiet cs), Comps.plainSets_quiet cs h.2⟩
  | .of _ _ t, h => by
    simp only [Ty.plainSets, Ty.quietSets] at h ⊢
    exact Ty.plainSets_quiet t h
  | .choice _ cs, h => by
    simp only [Ty.plainSets, Ty.quietSets] at h ⊢
    exact Comps.plainSets_quiet cs h
  | .bad _, _ => rfl
theorem Comps.plainSets_quiet : ∀ cs : Comps, cs.plainSets = true → cs.quietSets = true
  | .nil, _ => rfl
  | .cons f t cs, h => by
    simp only [Comps.plainSets, Comps.quietSets, Bool.and_eq_true] at h ⊢
    exact ⟨Ty.plainSets_quiet t h.1, Comps.plainSets_quiet cs h.2⟩
end

theorem plainSets_get : ∀ {cs : Comps} {i : Nat} {f : Field} {t : Ty}, cs.get? i = some (f, t) → cs.plainSets = true →
    t.plainSets = true
  | .nil, _, _, _, h, _ => by simp [Comps.get?] at h
  | .cons _ _ _, 0, _, _, h, hs => by
    simp [Comps.get?] at h
    simp only [Comps.plainSets, Bool.and_eq_true] at hs
    rw [← h.2]; exact hs.1
  | .cons _ _ cs, i + 1, _, _, h, hs => by
    simp only [Comps.get?] at h
    simp only [Comps.plainSets, Bool.and_eq_true] at hs
    exact plainSets_get h hs.2

/-- The octets in an open type field are what the encoder writes with the option. -/
def Kept (_ : Bool) (u : Ty) (v : Val) (b : Bytes) : Prop := encKeep false u v = some b ∧ u.plainSets = true

theorem putKeep_eq {k : Prim} {a : Attrs} {u : Ty} {b : Bytes} (hk : k = .any ∨ k = .octetString)
    (hs : sameType (.prim k a) u = false ∨ a.tags = []) :
    putOpenKeep (.prim k a) u b = encKeep false (.prim k a) (.octets b) := by
  have he : encPrim k (.octets b) = some b := by rcases hk with rfl | rfl <;> rfl
  simp only [putOpenKeep, encodeKeep]
  rcases hs with hs | hs
  · simp [hs]
  · by_cases h : sameType (.prim k a) u = true
    · rw [if_pos h]; simp [encKeep, he, hs, wrap]
    · rw [if_neg h]

theorem encKeepComps_absent {i s : Bool} {f : Field} {t : Ty} {cs : Comps} {v : Val} {vs : Vals} (hv : v = .absent) :
    encKeepComps i s (.cons f t cs) (.cons v vs) =
      (encKeepComps i s cs vs).bind (fun ps => if f.mode.isReq then none else some ps) := by
  subst hv
  simp only [encKeepComps]
  cases encKeepComps i s cs vs with
  | none => rfl
  | some ps => cases f.mode <;> simp [Mode.isReq]

/-- Inside a SET, an OPTIONAL component is primitive, and is encoded in the same way. -/
theorem oencKeep_prim {i j : Bool} {k : Prim} {a : Attrs} {w : OVal} (h : ∀ u v, w ≠ .opened u v) :
    oencKeep i (.prim k a) w = oencKeep j (.prim k a) w := by
  cases w with
  | leaf v => simp only [oencKeep, encKeep]
  | opened u v => exact absurd rfl (h u v)
  | _ => simp only [oencKeep]

theorem keepChunks_cons {S : Side} {s : Bool} {ds : Comps} {us : Vals} {f : Field} {t : Ty} {cs : Comps} {v : Val} {vs : Vals} {w : OVal}
    {ws : OVals} (h : OpensF S ds us f t v w)
    (hrest : SameChunks cs.noOpen (oencKeepComps false s cs ws) (encKeepComps false s cs vs))
    (hd : f.mode = .dflt v → w.plain? = some v)
    (he : v ≠ .absent → f.mode ≠ .dflt v →
      oencKeep (if s then f.mode.isOpt else false) t w = encKeep (if s then f.mode.isOpt else false) t v)
    (hk : f.openType = none → v ≠ .absent → f.mode ≠ .dflt v → osetKey t w = setKey t v) :
    SameChunks (Comps.cons f t cs).noOpen (oencKeepComps false s (.cons f t cs) (.cons w ws))
      (encKeepComps false s (.cons f t cs) (.cons v vs)) := by
  simp only [oencKeepComps]
  by_cases hv : v = .absent
  · rw [encKeepComps_absent hv]
    cases h1 : oencKeepComps false s cs ws <;> cases h2 : encKeepComps false s cs vs <;> rw [h1, h2] at hrest <;>
      simp only [SameChunks] at hrest
    · trivial
    · simp only [Option.bind_some]
      rw [if_pos (h.absentIff.2 hv)]
      cases f.mode.isReq
      · simp only [Bool.false_eq_true, if_false, SameChunks, Comps.noOpen, Bool.and_eq_true]
        exact ⟨hrest.1, fun h => hrest.2 h.2⟩
      · simp [SameChunks]
  · rw [encKeepComps_present hv]
    cases h1 : oencKeepComps false s cs ws <;> cases h2 : encKeepComps false s cs vs <;> rw [h1, h2] at hrest <;>
      simp only [SameChunks] at hrest
    · trivial
    · simp only [Option.bind_some]
      rw [if_neg (fun hw => hv (h.absentIff.1 hw))]
      by_cases hm : f.mode = .dflt v
      · rw [if_pos hm]
        have hw := hd hm
        simp only [hw, Option.isSome_some, Option.getD_some, hm, Bool.true_and, decide_true, if_true,
          SameChunks, Comps.noOpen, Bool.and_eq_true]
        exact ⟨hrest.1, fun h => hrest.2 h.2⟩
      · rw [if_neg hm]
        have : ¬ ((w.plain?.isSome && decide (f.mode = .dflt (w.plain?.getD .absent))) = true) := by
          intro hc
          simp only [Bool.and_eq_true, decide_eq_true_eq] at hc
          cases hp : w.plain? with
          | none => rw [hp] at hc; simp at hc
          | some v' =>
            rw [hp, Option.getD_some] at hc
            exact hm (by rw [hc.2, h.plainEq hp])
        rw [if_neg this, he hv hm]
        cases encKeep (if s then f.mode.isOpt else false) t v with
        | none => trivial
        | some b =>
          simp only [Option.map_some, SameChunks, List.map_cons, Comps.noOpen, Bool.and_eq_true, Option.isNone_iff_eq_none]
          exact ⟨by rw [hrest.1], fun h => by rw [hk h.1 hv hm, hrest.2 h.2]⟩

theorem ofKeep_eq {ine isSet : Bool} {a : Attrs} {t : Ty} {vs : Vals} {ws : OVals} (hl : ws.length = vs.length)
    (h : (oencKeepElems ine t ws).map (List.map Prod.fst) = mapOpt (encKeep ine t) vs.toList) :
    oencKeep ine (.of isSet a t) (.list ws) = encKeep ine (.of isSet a t) (.list vs) := by
  rw [encKeep_of_eq]
  simp only [oencKeep, hl]
  split
  · rw [← h]
    cases oencKeepElems ine t ws with
    | none => rfl
    | some ps =>
      simp only [Option.map_some]
      have : (if isSet then sortChunks ps else ps).flatMap Prod.fst =
          (if isSet then sortB (ps.map Prod.fst) else ps.map Prod.fst).flatten := by
        cases isSet with
        | false => simp [List.flatMap_def]
        | true => simp only [if_true, List.flatMap_def, sortChunks_fst]
      rw [this]
  · rfl

theorem encKeepAlt_get {ine : Bool} {v : Val} : ∀ {cs : Comps} {i : Nat} {f : Field} {t : Ty}, cs.get? i = some (f, t) →
    encKeepAlt ine cs i v = encKeep ine t v
  | .nil, _, _, _, h => by simp [Comps.get?] at h
  | .cons _ _ _, 0, _, _, h => by simp [Comps.get?] at h; simp [encKeepAlt, h.2]
  | .cons _ _ cs, i + 1, _, _, h => by simp only [Comps.get?] at h; simp [encKeepAlt, encKeepAlt_get h]

/-- A component of a SET that has no open fields. -/
theorem OpensF.keepPrim {S : Side} {i j : Bool} {ds : Comps} {us : Vals} {f : Field} {k : Prim} {a : Attrs} {v : Val} {w : OVal}
    (h : OpensF S ds us f (.prim k a) v w) (ho : f.openType = none) : oencKeep i (.prim k a) w = oencKeep j (.prim k a) w := by
  apply oencKeep_prim
  rintro u o rfl
  cases h with
  | plain => rename_i h; cases h
  | unknown => simp_all
  | known => simp_all

mutual
/-- A value with opened fields is encoded to the same octets as the value it was opened from. -/
theorem Opens.keepEq {D : Registry} : ∀ {ine : Bool} {t : Ty} {v : Val} {w : OVal}, Opens (sideOf Kept D) ine t v w →
    t.plainSets = true → oencKeep false t w = encKeep false t v
  | _, _, _, _, .prim _ _ _ _, _ => by simp [oencKeep]
  | _, _, _, _, .seq ine s a cs vs ws hs hc, hp => by
    simp only [Ty.plainSets, Bool.and_eq_true, Bool.or_eq_true, Bool.not_eq_true'] at hp
    have h1 := hc.names
    have h2 := hc.keepEq s (fun h => ⟨hs h, by simpa [h] using hp.1⟩) hp.2
    simp only [oencKeep, encKeep, h1]
    split
    · cases h3 : oencKeepComps false s cs ws <;> cases h4 : encKeepComps false s cs vs <;> rw [h3, h4] at h2 <;>
        simp only [SameChunks] at h2
      · rename_i ps qs
        have : (if s then sortBy tagsLe Prod.fst ps else ps).flatMap Prod.snd =
            (if s then sortBy tagsLe Prod.fst qs else qs).flatMap Prod.snd := by
          cases s with
          | true => rw [h2.2 (hs rfl)]
          | false =>
            simp only [Bool.false_eq_true, if_false, List.flatMap_def]
            rw [h2.1]
        simp only [this]
    · rfl
  | _, _, _, _, .of ine s a t vs ws he, hp => ofKeep_eq he.length (he.keepEq (by simpa [Ty.plainSets] using hp))
  | _, _, _, _, .choice ine a cs i f t v w hg hw, hp => by
    simp only [oencKeep, hg, hw.keepEq (plainSets_get hg (by simpa [Ty.plainSets] using hp)), encKeep]
    rw [encKeepAlt_get hg]
theorem OpensE.keepEq {D : Registry} : ∀ {ine : Bool} {t : Ty} {vs : Vals} {ws : OVals}, OpensE (sideOf Kept D) ine t vs ws →
    t.plainSets = true → (oencKeepElems false t ws).map (List.map Prod.fst) = mapOpt (encKeep false t) vs.toList
  | _, _, _, _, .nil _ _, _ => by simp [oencKeepElems, Vals.toList, mapOpt]
  | _, _, _, _, .cons ine t v w vs ws h1 h2, hp => by
    have h3 := h1.keepEq hp
    have h4 := h2.keepEq hp
    simp only [oencKeepElems, Vals.toList, mapOpt, h3, ← h4]
    cases encKeep false t v <;> cases oencKeepElems false t ws <;> rfl
theorem OpensC.keepEq {D : Registry} : ∀ {ds : Comps} {us : Vals} {cs : Comps} {vs : Vals} {ws : OVals},
    OpensC (sideOf Kept D) ds us cs vs ws → ∀ s : Bool, (s = true → cs.noOpen = true ∧ cs.optPrim = true) → cs.plainSets = true →
    SameChunks cs.noOpen (oencKeepComps false s cs ws) (encKeepComps false s cs vs)
  | _, _, _, _, _, .nil _ _, _, _, _ => by simp [oencKeepComps, encKeepComps, SameChunks]
  | _, _, _, _, _, .cons ds us f t cs v vs w ws h1 h2, s, hs, hp => by
    simp only [Comps.plainSets, Bool.and_eq_true] at hp
    simp only [Comps.noOpen, Comps.optPrim, Bool.and_eq_true, Option.isNone_iff_eq_none, Bool.or_eq_true] at hs
    have h3 := h1.keepEq hp.1
    have h4 := h2.keepEq s (fun h => ⟨(hs h).1.2, (hs h).2.2⟩) hp.2
    refine keepChunks_cons h1 h4 ?_ ?_ ?_
    · intro hm
      cases h1 with
      | absent => simp_all
      | dflt => rfl
      | plain => rename_i hp _; exact hp hm
      | unknown => rename_i hp _; exact hp hm
      | known => rename_i hp _; exact hp hm
    · intro hv hm
      cases s with
      | false => exact h3 hv hm
      | true =>
        simp only [if_true]
        obtain ⟨⟨ho, _⟩, ht, _⟩ := hs rfl
        cases hi : f.mode.isOpt with
        | false => exact h3 hv hm
        | true =>
          rw [hi] at ht
          cases t <;> simp at ht
          rw [h1.keepPrim (j := false) ho, h3 hv hm]
          simp only [encKeep]
    · intro ho hv hm
      cases h1 with
      | absent => exact absurd rfl hv
      | dflt => simp_all
      | plain => rename_i h; exact Opens.key h
      | unknown => simp_all
      | known => simp_all
theorem OpensF.keepEq {D : Registry} : ∀ {ds : Comps} {us : Vals} {f : Field} {t : Ty} {v : Val} {w : OVal},
    OpensF (sideOf Kept D) ds us f t v w → t.plainSets = true → v ≠ .absent → f.mode ≠ .dflt v →
    oencKeep false t w = encKeep false t v
  | _, _, _, _, _, _, .absent _ _ _ _ _, _, h, _ => absurd rfl h
  | _, _, _, _, _, _, .dflt _ _ _ _ _ hm _, _, _, h => absurd hm h
  | _, _, _, _, _, _, .plain _ _ _ _ _ _ _ _ hw, hp, _, _ => hw.keepEq hp
  | _, _, _, _, _, _, .unknown _ _ _ _ _ _ _ _ _ _ _ _ hw, hp, _, _ => hw.keepEq hp
  | _, _, _, _, _, _, .known _ _ _ _ _ _ _ _ _ _ _ _ _ hw, hp, _, _ => hw.keepEq hp
theorem OpensV.keepEq {D : Registry} : ∀ {ine : Bool} {t u : Ty} {v : Val} {w : OVal}, OpensV (sideOf Kept D) ine t u v w →
    t.plainSets = true → oencKeep false t w = encKeep false t v
  | _, _, _, _, _, .one ine t u b rest v w _ hc hw, _ => by
    obtain ⟨⟨hb, hp⟩, k, a, ht, hk, hs⟩ := hc
    have h1 := hw.keepEq hp
    subst ht
    simp only [oencKeep, h1, hb]
    exact putKeep_eq hk hs
  | _, _, _, _, _, .many ine s a t u vs ws hl, hp => ofKeep_eq hl.length (hl.keepEq (by simpa [Ty.plainSets] using hp))
theorem OpensL.keepEq {D : Registry} : ∀ {ine : Bool} {t u : Ty} {vs : Vals} {ws : OVals}, OpensL (sideOf Kept D) ine t u vs ws →
    t.plainSets = true → (oencKeepElems false t ws).map (List.map Prod.fst) = mapOpt (encKeep false t) vs.toList
  | _, _, _, _, _, .nil _ _ _, _ => by simp [oencKeepElems, Vals.toList, mapOpt]
  | _, _, _, _, _, .cons ine t u b rest v w vs ws _ hc hw hl, hp => by
    have h4 := hl.keepEq hp
    obtain ⟨⟨hb, hq⟩, k, a, ht, hk, hs⟩ := hc
    have h1 := hw.keepEq hq
    subst ht
    have h3 : oencKeep false (.prim k a) (.opened u w) = encKeep false (.prim k a) (.octets b) := by
      simp only [oencKeep, h1, hb]
      exact putKeep_eq hk hs
    simp only [oencKeepElems, Vals.toList, mapOpt, h3, ← h4]
    cases encKeep false (.prim k a) (.octets b) <;> cases oencKeepElems false (.prim k a) ws <;> rfl
end

end Asn1
end Verif
