import Verif.Asn1.OpenSound
import Verif.Asn1.Canon

/-!
# Encoding values with opened fields
-/

namespace Verif
namespace Asn1

/-- The contents of every open field are `P`-encodings of what they decode to, the field is distinguishable from its
contents, components equal to their default have no opened fields, and no SET has open fields. -/
def sideOf (P : Bool → Ty → Val → Bytes → Prop) (D : Registry) : Side where
  registry := D
  content ine t u b v := P ine u v b ∧
    ∃ k a, t = .prim k a ∧ (k = .any ∨ k = .octetString) ∧ (sameType t u = false ∨ a.tags = [])
  present f v w := f.mode = .dflt v → w.plain? = some v
  set cs := cs.noOpen = true

/-- Requirements under which a decoded value encodes to the octets it came from. -/
abbrev encSide (D : Registry) : Side := sideOf (fun ine u v b => enc ine u v = some b) D

theorem put_eq {ine : Bool} {k : Prim} {a : Attrs} {u : Ty} {b : Bytes} (hk : k = .any ∨ k = .octetString)
    (hs : sameType (.prim k a) u = false ∨ a.tags = []) :
    putOpen (.prim k a) u b = enc ine (.prim k a) (.octets b) := by
  have he : encPrim k (.octets b) = some b := by rcases hk with rfl | rfl <;> rfl
  simp only [putOpen, encode]
  rcases hs with hs | hs
  · simp [hs, enc]
  · by_cases h : sameType (.prim k a) u = true
    · rw [if_pos h]; simp [enc, he, hs, wrap]
    · rw [if_neg h]; simp [enc]

mutual
theorem Opens.plainEq {S : Side} : ∀ {ine : Bool} {t : Ty} {v v' : Val} {w : OVal}, Opens S ine t v w →
    w.plain? = some v' → v' = v
  | _, _, _, _, _, .prim _ _ _ _, h => by simp [OVal.plain?] at h; exact h.symm
  | _, _, _, _, _, .seq _ _ _ _ _ _ _ hc, h => by
    simp only [OVal.plain?, Option.map_eq_some_iff] at h
    obtain ⟨vs, h1, h2⟩ := h
    rw [← h2, hc.plainEq h1]
  | _, _, _, _, _, .of _ _ _ _ _ _ he, h => by
    simp only [OVal.plain?, Option.map_eq_some_iff] at h
    obtain ⟨vs, h1, h2⟩ := h
    rw [← h2, he.plainEq h1]
  | _, _, _, _, _, .choice _ _ _ _ _ _ _ _ _ hw, h => by
    simp only [OVal.plain?, Option.map_eq_some_iff] at h
    obtain ⟨v, h1, h2⟩ := h
    rw [← h2, hw.plainEq h1]
theorem OpensE.plainEq {S : Side} : ∀ {ine : Bool} {t : Ty} {vs vs' : Vals} {ws : OVals}, OpensE S ine t vs ws →
    ws.plain? = some vs' → vs' = vs
  | _, _, _, _, _, .nil _ _, h => by simp [OVals.plain?] at h; exact h.symm
  | _, _, _, _, _, .cons _ _ _ _ _ _ h1 h2, h => by
    simp only [OVals.plain?] at h
    split at h
    · rename_i h3 h4
      simp at h
      rw [← h, h1.plainEq h3, h2.plainEq h4]
    · simp at h
theorem OpensC.plainEq {S : Side} : ∀ {ds : Comps} {us : Vals} {cs : Comps} {vs vs' : Vals} {ws : OVals}, OpensC S ds us cs vs ws →
    ws.plain? = some vs' → vs' = vs
  | _, _, _, _, _, _, .nil _ _, h => by simp [OVals.plain?] at h; exact h.symm
  | _, _, _, _, _, _, .cons _ _ _ _ _ _ _ _ _ h1 h2, h => by
    simp only [OVals.plain?] at h
    split at h
    · rename_i h3 h4
      simp at h
      rw [← h, h1.plainEq h3, h2.plainEq h4]
    · simp at h
theorem OpensF.plainEq {S : Side} : ∀ {ds : Comps} {us : Vals} {f : Field} {t : Ty} {v v' : Val} {w : OVal}, OpensF S ds us f t v w →
    w.plain? = some v' → v' = v
  | _, _, _, _, _, _, _, .absent _ _ _ _ _, h => by simp [OVal.plain?] at h; exact h.symm
  | _, _, _, _, _, _, _, .dflt _ _ _ _ _ _ _, h => by simp [OVal.plain?] at h; exact h.symm
  | _, _, _, _, _, _, _, .plain _ _ _ _ _ _ _ _ hw, h => hw.plainEq h
  | _, _, _, _, _, _, _, .unknown _ _ _ _ _ _ _ _ _ _ _ _ hw, h => hw.plainEq h
  | _, _, _, _, _, _, _, .known _ _ _ _ _ _ _ _ _ _ _ _ _ hw, h => hw.plainEq h
theorem OpensV.plainEq {S : Side} : ∀ {ine : Bool} {t u : Ty} {v v' : Val} {w : OVal}, OpensV S ine t u v w →
    w.plain? = some v' → v' = v
  | _, _, _, _, _, _, .one _ _ _ _ _ _ _ _ _ _, h => by simp [OVal.plain?] at h
  | _, _, _, _, _, _, .many _ _ _ _ _ _ _ hl, h => by
    simp only [OVal.plain?, Option.map_eq_some_iff] at h
    obtain ⟨vs, h1, h2⟩ := h
    rw [← h2, hl.plainEq h1]
theorem OpensL.plainEq {S : Side} : ∀ {ine : Bool} {t u : Ty} {vs vs' : Vals} {ws : OVals}, OpensL S ine t u vs ws →
    ws.plain? = some vs' → vs' = vs
  | _, _, _, _, _, _, .nil _ _ _, h => by simp [OVals.plain?] at h; exact h.symm
  | _, _, _, _, _, _, .cons _ _ _ _ _ _ _ _ _ _ _ _ _, h => by simp [OVals.plain?, OVal.plain?] at h
end

theorem Opens.absent {S : Side} {ine : Bool} {t : Ty} {v : Val} {w : OVal} (h : Opens S ine t v w) :
    w.isAbsent = true ↔ v = .absent := by
  cases h with
  | prim => cases v <;> simp [OVal.isAbsent]
  | _ => simp [OVal.isAbsent]

theorem OpensF.absentIff {S : Side} {ds : Comps} {us : Vals} {f : Field} {t : Ty} {v : Val} {w : OVal} (h : OpensF S ds us f t v w) :
    w.isAbsent = true ↔ v = .absent := by
  cases h with
  | absent => simp [OVal.isAbsent]
  | dflt => cases v <;> simp [OVal.isAbsent]
  | plain => rename_i h; exact Opens.absent h
  | unknown => rename_i h; exact Opens.absent h
  | known => rename_i h; cases h <;> simp [OVal.isAbsent]

theorem OpensC.names {S : Side} {ds : Comps} {us : Vals} : ∀ {cs : Comps} {vs : Vals} {ws : OVals}, OpensC S ds us cs vs ws →
    opresentNames cs ws = presentNames cs vs
  | _, _, _, .nil _ _ => rfl
  | _, _, _, .cons _ _ f t cs v vs w ws h1 h2 => by
    simp only [opresentNames, presentNames, h2.names]
    by_cases hv : v = .absent
    · rw [if_pos hv, if_pos (h1.absentIff.2 hv)]
    · rw [if_neg hv, if_neg (fun hw => hv (h1.absentIff.1 hw))]

/-- The same chunks, with the same sort keys if there are no open fields. -/
def SameChunks (noOpen : Bool) : Option (List (TagSet × Bytes)) → Option (List (TagSet × Bytes)) → Prop
  | none, none => True
  | some ps, some qs => ps.map Prod.snd = qs.map Prod.snd ∧ (noOpen = true → ps = qs)
  | _, _ => False

theorem Opens.key {S : Side} {ine : Bool} {t : Ty} {v : Val} {w : OVal} (h : Opens S ine t v w) : osetKey t w = setKey t v := by
  cases h with
  | prim => rfl
  | seq => rfl
  | of => rfl
  | choice => rfl

/-- As `encComps`, one component. -/
theorem encComps_absent {f : Field} {t : Ty} {cs : Comps} {v : Val} {vs : Vals} (hv : v = .absent) :
    encComps (.cons f t cs) (.cons v vs) = (encComps cs vs).bind (fun ps => if f.mode.isReq then none else some ps) := by
  subst hv
  simp only [encComps]
  cases encComps cs vs with
  | none => rfl
  | some ps => cases f.mode <;> simp [Mode.isReq]

theorem encComps_present {f : Field} {t : Ty} {cs : Comps} {v : Val} {vs : Vals} (hv : v ≠ .absent) :
    encComps (.cons f t cs) (.cons v vs) = (encComps cs vs).bind (fun ps => if f.mode = .dflt v then some ps
      else (enc f.mode.isOpt t v).map (fun b => (setKey t v, b) :: ps)) := by
  simp only [encComps]
  cases encComps cs vs with
  | none => rfl
  | some ps =>
    simp only [Option.bind_some]
    split
    · exact absurd rfl hv
    · exact absurd rfl hv
    · exact absurd rfl hv
    · split
      · rfl
      · generalize enc _ _ _ = e
        cases e <;> rfl

/-- The chunk of one component: same octets, and same key unless opened. -/
theorem sameChunks_cons {S : Side} {ds : Comps} {us : Vals} {f : Field} {t : Ty} {cs : Comps} {v : Val} {vs : Vals} {w : OVal}
    {ws : OVals} (h : OpensF S ds us f t v w) (hrest : SameChunks cs.noOpen (oencComps cs ws) (encComps cs vs))
    (hd : f.mode = .dflt v → w.plain? = some v)
    (he : v ≠ .absent → f.mode ≠ .dflt v → oenc f.mode.isOpt t w = enc f.mode.isOpt t v)
    (hk : f.openType = none → v ≠ .absent → f.mode ≠ .dflt v → osetKey t w = setKey t v) :
    SameChunks (Comps.cons f t cs).noOpen (oencComps (.cons f t cs) (.cons w ws)) (encComps (.cons f t cs) (.cons v vs)) := by
  simp only [oencComps]
  by_cases hv : v = .absent
  · rw [encComps_absent hv]
    cases h1 : oencComps cs ws <;> cases h2 : encComps cs vs <;> rw [h1, h2] at hrest <;> simp only [SameChunks] at hrest
    · trivial
    · simp only [Option.bind_some]
      rw [if_pos (h.absentIff.2 hv)]
      cases f.mode.isReq
      · simp only [Bool.false_eq_true, if_false, SameChunks, Comps.noOpen, Bool.and_eq_true]
        exact ⟨hrest.1, fun h => hrest.2 h.2⟩
      · simp [SameChunks]
  · rw [encComps_present hv]
    cases h1 : oencComps cs ws <;> cases h2 : encComps cs vs <;> rw [h1, h2] at hrest <;> simp only [SameChunks] at hrest
    · trivial
    · simp only [Option.bind_some]
      rw [if_neg (fun hw => hv (h.absentIff.1 hw))]
      by_cases hm : f.mode = .dflt v
      · rw [if_pos hm]
        have hw := hd hm
        simp only [hw, Option.isSome_some, Option.getD_some, hm, Bool.true_and, decide_true, if_true,
          SameChunks, Comps.noOpen, Bool.and_eq_true]
        exact ⟨hrest.1, fun h => hrest.2 h.2⟩
      · rw [if_neg hm]
        have : ¬ ((w.plain?.isSome && decide (f.mode = .dflt (w.plain?.getD .absent))) = true) := by
          intro hc
          simp only [Bool.and_eq_true, decide_eq_true_eq] at hc
          cases hp : w.plain? with
          | none => rw [hp] at hc; simp at hc
          | some v' =>
            rw [hp, Option.getD_some] at hc
            exact hm (by rw [hc.2, h.plainEq hp])
        rw [if_neg this, he hv hm]
        cases enc f.mode.isOpt t v with
        | none => trivial
        | some b =>
          simp only [Option.map_some, SameChunks, List.map_cons, Comps.noOpen, Bool.and_eq_true, Option.isNone_iff_eq_none]
          exact ⟨by rw [hrest.1], fun h => by rw [hk h.1 hv hm, hrest.2 h.2]⟩

/-- Encoding a collection from the encodings of its elements. -/
theorem of_eq {ine isSet : Bool} {a : Attrs} {t : Ty} {vs : Vals} {ws : OVals} (hl : ws.length = vs.length)
    (h : (oencElems ine t ws).map (List.map Prod.fst) = mapOpt (enc ine t) vs.toList) :
    oenc ine (.of isSet a t) (.list ws) = enc ine (.of isSet a t) (.list vs) := by
  rw [enc_of_eq]
  simp only [oenc, hl]
  split
  · rw [← h]
    cases oencElems ine t ws with
    | none => rfl
    | some ps =>
      simp only [Option.map_some]
      have : (if isSet then sortChunks ps else ps).flatMap Prod.fst =
          (if isSet then sortB (ps.map Prod.fst) else ps.map Prod.fst).flatten := by
        cases isSet with
        | false => simp [List.flatMap_def]
        | true => simp only [if_true, List.flatMap_def, sortChunks_fst]
      rw [this]
  · rfl

theorem encAlt_get {ine : Bool} {v : Val} : ∀ {cs : Comps} {i : Nat} {f : Field} {t : Ty}, cs.get? i = some (f, t) →
    encAlt ine cs i v = enc ine t v
  | .nil, _, _, _, h => by simp [Comps.get?] at h
  | .cons _ _ _, 0, _, _, h => by simp [Comps.get?] at h; simp [encAlt, h.2]
  | .cons _ _ cs, i + 1, _, _, h => by simp only [Comps.get?] at h; simp [encAlt, encAlt_get h]

theorem OpensE.length {S : Side} {ine : Bool} {t : Ty} : ∀ {vs : Vals} {ws : OVals}, OpensE S ine t vs ws → ws.length = vs.length
  | _, _, .nil _ _ => rfl
  | _, _, .cons _ _ _ _ _ _ _ h => by simp [OVals.length, Vals.length, h.length]

theorem OpensL.length {S : Side} {ine : Bool} {t u : Ty} : ∀ {vs : Vals} {ws : OVals}, OpensL S ine t u vs ws → ws.length = vs.length
  | _, _, .nil _ _ _ => rfl
  | _, _, .cons _ _ _ _ _ _ _ _ _ _ _ _ h => by simp [OVals.length, Vals.length, h.length]

mutual
/-- A value with opened fields encodes to the same octets as the value it was opened from. -/
theorem Opens.encEq {D : Registry} : ∀ {ine : Bool} {t : Ty} {v : Val} {w : OVal}, Opens (encSide D) ine t v w →
    oenc ine t w = enc ine t v
  | _, _, _, _, .prim _ _ _ _ => by simp [oenc]
  | _, _, _, _, .seq ine s a cs vs ws hs hc => by
    have h1 := hc.names
    have h2 := hc.encEq
    simp only [oenc, Asn1.enc, h1]
    split
    · cases h3 : oencComps cs ws <;> cases h4 : encComps cs vs <;> rw [h3, h4] at h2 <;> simp only [SameChunks] at h2
      · rename_i ps qs
        have : (if s then sortBy tagsLe Prod.fst ps else ps).flatMap Prod.snd =
            (if s then sortBy tagsLe Prod.fst qs else qs).flatMap Prod.snd := by
          cases s with
          | true => rw [h2.2 (hs rfl)]
          | false =>
            simp only [Bool.false_eq_true, if_false, List.flatMap_def]
            rw [h2.1]
        simp only [this]
    · rfl
  | _, _, _, _, .of ine s a t vs ws he => of_eq he.length he.encEq
  | _, _, _, _, .choice ine a cs i f t v w hg hw => by
    simp only [oenc, hg, hw.encEq, Asn1.enc]
    rw [encAlt_get hg]
    cases enc ine t v <;> rfl
theorem OpensE.encEq {D : Registry} : ∀ {ine : Bool} {t : Ty} {vs : Vals} {ws : OVals}, OpensE (encSide D) ine t vs ws →
    (oencElems ine t ws).map (List.map Prod.fst) = mapOpt (enc ine t) vs.toList
  | _, _, _, _, .nil _ _ => by simp [oencElems, Vals.toList, mapOpt]
  | _, _, _, _, .cons ine t v w vs ws h1 h2 => by
    have h3 := h1.encEq
    have h4 := h2.encEq
    simp only [oencElems, Vals.toList, mapOpt, h3, ← h4]
    cases enc ine t v <;> cases oencElems ine t ws <;> rfl
theorem OpensC.encEq {D : Registry} : ∀ {ds : Comps} {us : Vals} {cs : Comps} {vs : Vals} {ws : OVals},
    OpensC (encSide D) ds us cs vs ws → SameChunks cs.noOpen (oencComps cs ws) (encComps cs vs)
  | _, _, _, _, _, .nil _ _ => by simp [oencComps, encComps, SameChunks]
  | _, _, _, _, _, .cons ds us f t cs v vs w ws h1 h2 => by
    have h3 := h1.encEq
    have h4 := h2.encEq
    refine sameChunks_cons h1 h4 ?_ h3 ?_
    · intro hm
      cases h1 with
      | absent => simp_all
      | dflt => rfl
      | plain => rename_i hp _; exact hp hm
      | unknown => rename_i hp _; exact hp hm
      | known => rename_i hp _; exact hp hm
    · intro ho hv hm
      cases h1 with
      | absent => exact absurd rfl hv
      | dflt => simp_all
      | plain => rename_i h; exact Opens.key h
      | unknown => simp_all
      | known => simp_all
theorem OpensF.encEq {D : Registry} : ∀ {ds : Comps} {us : Vals} {f : Field} {t : Ty} {v : Val} {w : OVal},
    OpensF (encSide D) ds us f t v w → v ≠ .absent → f.mode ≠ .dflt v → oenc f.mode.isOpt t w = enc f.mode.isOpt t v
  | _, _, _, _, _, _, .absent _ _ _ _ _, h, _ => absurd rfl h
  | _, _, _, _, _, _, .dflt _ _ _ _ _ hm _, _, h => absurd hm h
  | _, _, _, _, _, _, .plain _ _ _ _ _ _ _ _ hw, _, _ => hw.encEq
  | _, _, _, _, _, _, .unknown _ _ _ _ _ _ _ _ _ _ _ _ hw, _, _ => hw.encEq
  | _, _, _, _, _, _, .known _ _ _ _ _ _ _ _ _ _ _ _ _ hw, _, _ => hw.encEq
theorem OpensV.encEq {D : Registry} : ∀ {ine : Bool} {t u : Ty} {v : Val} {w : OVal}, OpensV (encSide D) ine t u v w →
    oenc ine t w = enc ine t v
  | _, _, _, _, _, .one ine t u b rest v w _ hc hw => by
    obtain ⟨hb, k, a, ht, hk, hs⟩ := hc
    have h1 := hw.encEq
    subst ht
    simp only [oenc, h1, hb]
    exact put_eq hk hs
  | _, _, _, _, _, .many ine s a t u vs ws hl => of_eq hl.length hl.encEq
theorem OpensL.encEq {D : Registry} : ∀ {ine : Bool} {t u : Ty} {vs : Vals} {ws : OVals}, OpensL (encSide D) ine t u vs ws →
    (oencElems ine t ws).map (List.map Prod.fst) = mapOpt (enc ine t) vs.toList
  | _, _, _, _, _, .nil _ _ _ => by simp [oencElems, Vals.toList, mapOpt]
  | _, _, _, _, _, .cons ine t u b rest v w vs ws _ hc hw hl => by
    obtain ⟨hb, k, a, ht, hk, hs⟩ := hc
    have h1 := hw.encEq
    have h4 := hl.encEq
    subst ht
    have h3 : oenc ine (.prim k a) (.opened u w) = enc ine (.prim k a) (.octets b) := by
      simp only [oenc, h1, hb]
      exact put_eq hk hs
    simp only [oencElems, Vals.toList, mapOpt, h3, ← h4]
    cases enc ine (.prim k a) (.octets b) <;> cases oencElems ine (.prim k a) ws <;> rfl
end

end Asn1
end Verif
