import Verif.Asn1.Held
import Verif.Asn1.OpenEnc
import Verif.Asn1.OpenFuel

/-!
# With `omitEmptyOptionals=False`, OPTIONAL is as DEFAULT nothing
-/

namespace Verif
namespace Asn1

mutual
/-- No collection or SEQUENCE in it can be without contents. -/
def Ty.quiet : Ty → Bool
  | .seq _ _ cs => !cs.canVanish && cs.quiet
  | .of _ a t => !(Ty.of false a t).canVanish && t.quiet
  | .choice _ cs => cs.quiet
  | _ => true
def Comps.quiet : Comps → Bool
  | .nil => true
  | .cons _ t cs => t.quiet && cs.quiet
end

/-- The OPTIONAL components of a SET have contents. -/
def Comps.optQuiet : Comps → Bool
  | .nil => true
  | .cons f t cs => (!f.mode.isOpt || t.quiet) && cs.optQuiet

mutual
/-- The SETs in it have no OPTIONAL components that could be without contents, so that it does not matter that
`omitEmptyOptionals` is not for them. -/
def Ty.quietSets : Ty → Bool
  | .seq s _ cs => (!s || cs.optQuiet) && cs.quietSets
  | .of _ _ t => t.quietSets
  | .choice _ cs => cs.quietSets
  | _ => true
def Comps.quietSets : Comps → Bool
  | .nil => true
  | .cons _ t cs => t.quietSets && cs.quietSets
end

theorem encKeep_of_eq (ine isSet : Bool) (a : Attrs) (t : Ty) (vs : Vals) :
    encKeep ine (.of isSet a t) (.list vs) =
      if a.spec.ok (.mapping vs.length []) then
        match mapOpt (encKeep ine t) vs.toList with
        | none => none
        | some cs =>
          let content := (if isSet then sortB cs else cs).flatten
          if ine && content.isEmpty then some [] else wrap true a.tags content
      else none := by
  simp only [encKeep]
  split
  · rw [← mapOpt_pairs]
    cases mapOpt (fun v => (encKeep ine t v).map (fun b => (b, v))) vs.toList with
    | none => rfl
    | some ps =>
      simp only [Option.map_some]
      have : (if isSet then sortChunks ps else ps).flatMap Prod.fst =
          (if isSet then sortB (ps.map Prod.fst) else ps.map Prod.fst).flatten := by
        rw [List.flatMap_def]
        cases isSet with
        | false => rfl
        | true => simp only [if_true, sortChunks_fst]
      rw [this]
  · rfl

/-- A collection whose elements have octets has contents, unless there are no elements. -/
theorem content_empty {isSet : Bool} {cs : List Bytes} (h : (if isSet then sortB cs else cs).flatten.isEmpty = true)
    (hc : ∀ c ∈ cs, c.isEmpty = false) : cs = [] := by
  have h : ∀ c ∈ cs, c = [] := by
    intro c hm
    rw [List.isEmpty_iff, List.flatten_eq_nil_iff] at h
    apply h
    cases isSet
    · exact hm
    · exact (sortBy_perm _ _ _).mem_iff.2 hm
  cases cs with
  | nil => rfl
  | cons c cs =>
    have h1 := h c (by simp)
    have h2 := hc c (by simp)
    rw [h1] at h2
    simp at h2

theorem encKeepComps_present {ine isSet : Bool} {f : Field} {t : Ty} {cs : Comps} {v : Val} {vs : Vals} (hv : v ≠ .absent) :
    encKeepComps ine isSet (.cons f t cs) (.cons v vs) = (encKeepComps ine isSet cs vs).bind (fun ps =>
      if f.mode = .dflt v then some ps
      else (encKeep (if isSet then f.mode.isOpt else ine) t v).map (fun b => (setKey t v, b) :: ps)) := by
  simp only [encKeepComps]
  cases encKeepComps ine isSet cs vs with
  | none => rfl
  | some ps =>
    simp only [Option.bind_some]
    split
    · exact absurd rfl hv
    · exact absurd rfl hv
    · exact absurd rfl hv
    · split
      · rfl
      · generalize encKeep _ _ _ = e
        cases e <;> rfl

theorem encKeepComps_eq {ine isSet : Bool} {f : Field} {t : Ty} {cs : Comps} {v : Val} {vs : Vals}
    (hcs : encKeepComps ine isSet cs vs = encComps cs.held vs)
    (ht : v ≠ .absent → f.mode ≠ .dflt v → encKeep (if isSet then f.mode.isOpt else ine) t v = enc false t.held v) :
    encKeepComps ine isSet (.cons f t cs) (.cons v vs) = encComps (Comps.cons f t cs).held (.cons v vs) := by
  simp only [Comps.held]
  by_cases hv : v = .absent
  · rw [encComps_absent hv]
    subst hv
    simp only [encKeepComps, hcs]
    cases encComps cs.held vs with
    | none => rfl
    | some ps => cases f with | mk n m o => cases m <;> simp [Field.held, Mode.held, Mode.isReq]
  · rw [encComps_present hv, ← hcs]
    rw [encKeepComps_present hv]
    cases encKeepComps ine isSet cs vs with
    | none => rfl
    | some ps =>
      simp only [Option.bind_some, Field.held_mode, Mode.held_isOpt, Ty.held_setKey, Mode.held_dflt hv]
      by_cases hm : f.mode = .dflt v
      · rw [if_pos hm, if_pos hm]
      · rw [if_neg hm, if_neg hm, ht hv hm]

mutual
theorem encKeep_held : ∀ (t : Ty) (ine : Bool) (v : Val), t.held.wf = true → t.quietSets = true → (ine = true → t.quiet = true) →
    t.valid v = true → encKeep ine t v = enc false t.held v
  | .prim k a, _, v, _, _, _, _ => by simp only [encKeep, Ty.held, enc]
  | .seq s a cs, ine, v, hw, hs, hq, hv => by
    cases v <;> simp only [Ty.valid, Bool.false_eq_true] at hv
    rename_i vs
    have hh : (Ty.seq s a cs).held = .seq s a cs.held := by simp [Ty.held]
    rw [hh] at hw ⊢
    have hw' := hw
    simp only [Ty.wf, Bool.and_eq_true] at hw'
    have hv' := hv
    simp only [Bool.and_eq_true] at hv'
    simp only [Ty.quietSets, Bool.and_eq_true] at hs
    simp only [Ty.quiet, Bool.and_eq_true, Bool.not_eq_true'] at hq
    have hc := encKeep_comps cs ine s vs hw'.1.1.2 hs.2 (fun h => (hq h).2) (fun h => by simpa [h] using hs.1) hv'.1
    simp only [encKeep, enc, hc, Comps.held_names, Bool.false_and, Bool.false_eq_true, if_false]
    rw [if_pos hv'.2, if_pos hv'.2]
    cases he : encComps cs.held vs with
    | none => rfl
    | some ps =>
      apply if_neg
      intro hemp
      simp only [Bool.and_eq_true] at hemp
      have h1 : enc true (.seq s a cs.held) (.record vs) = some [] := by
        simp only [enc, Comps.held_names, he]
        rw [if_pos hv'.2]
        simp only [Bool.true_and]
        rw [if_pos hemp.2]
      have h2 := enc_empty_iff _ true (.record vs) [] hw
        (by rw [← hh, Ty.held_valid]; simpa [Ty.valid] using hv) h1
      simp only [List.isEmpty_nil, Bool.true_and, Ty.vanish] at h2
      have h3 := Comps.canVanish_of _ _ h2.symm
      rw [Comps.held_canVanish, (hq hemp.1).1] at h3
      simp at h3
  | .of s a t, ine, v, hw, hs, hq, hv => by
    cases v <;> simp only [Ty.valid, Bool.false_eq_true] at hv
    rename_i vs
    simp only [Ty.held, Ty.wf, Bool.and_eq_true] at hw ⊢
    simp only [Bool.and_eq_true, Vals.every_iff, List.all_eq_true] at hv
    simp only [Ty.quietSets] at hs
    simp only [Ty.quiet, Bool.and_eq_true, Bool.not_eq_true', Ty.canVanish, Bool.or_eq_false_iff] at hq
    have hc : mapOpt (encKeep ine t) vs.toList = mapOpt (enc false t.held) vs.toList :=
      mapOpt_congr _ (fun v hm => encKeep_held t ine v hw.2 hs (fun h => (hq h).2) (hv.1 v hm))
    rw [encKeep_of_eq, enc_of_eq, hc, if_pos hv.2, if_pos hv.2]
    cases he : mapOpt (enc false t.held) vs.toList with
    | none => rfl
    | some cs =>
      simp only [Bool.false_and, Bool.false_eq_true, if_false]
      apply if_neg
      intro hemp
      simp only [Bool.and_eq_true] at hemp
      rw [mapOpt_all2] at he
      have h1 : ∀ c ∈ cs, c.isEmpty = false := by
        intro c hm
        obtain ⟨u, hu, h⟩ := all2_mem_right he c hm
        have := enc_empty_iff _ false u c hw.2 (by rw [Ty.held_valid]; exact hv.1 u hu) h
        simpa using this
      have h2 := content_empty hemp.2 h1
      subst h2
      have h3 : vs.length = 0 := by
        have := all2_length he
        simpa [Vals.length_toList] using this
      have h4 := hv.2
      rw [h3, (hq hemp.1).1.1] at h4
      simp at h4
  | .choice a cs, ine, v, hw, hs, hq, hv => by
    cases v <;> simp only [Ty.valid, Bool.false_eq_true] at hv
    rename_i i v
    simp only [Ty.held, Ty.wf, Bool.and_eq_true] at hw ⊢
    simp only [Ty.quietSets] at hs
    simp only [Ty.quiet] at hq
    obtain ⟨hc, h1⟩ := encKeep_alt cs ine i v hw.1.2 hs hq hv
    simp only [encKeep, enc, hc, Bool.false_and, Bool.false_eq_true, if_false]
    cases he : encAlt false cs.held i v with
    | none => rfl
    | some b => simp [h1 b he]
  | .bad _, _, _, _, _, _, hv => by simp [Ty.valid] at hv
theorem encKeep_comps : ∀ (cs : Comps) (ine isSet : Bool) (vs : Vals), cs.held.wf = true → cs.quietSets = true →
    (ine = true → cs.quiet = true) → (isSet = true → cs.optQuiet = true) → cs.valid vs = true →
    encKeepComps ine isSet cs vs = encComps cs.held vs
  | .nil, _, _, vs, _, _, _, _, _ => by cases vs <;> simp [encKeepComps, encComps, Comps.held]
  | .cons f t cs, _, _, .nil, _, _, _, _, h => by simp [Comps.valid] at h
  | .cons f t cs, ine, isSet, .cons v vs, hw, hs, hq, ho, hv => by
    simp only [Comps.held, Comps.wf, Bool.and_eq_true] at hw
    simp only [Comps.quietSets, Bool.and_eq_true] at hs
    simp only [Comps.quiet, Bool.and_eq_true] at hq
    simp only [Comps.optQuiet, Bool.and_eq_true, Bool.or_eq_true, Bool.not_eq_true'] at ho
    simp only [Comps.valid, Bool.and_eq_true] at hv
    refine encKeepComps_eq (encKeep_comps cs ine isSet vs hw.2 hs.2 (fun h => (hq h).2) (fun h => (ho h).2) hv.2) ?_
    intro h1 h2
    refine encKeep_held t _ v hw.1 hs.1 ?_ ?_
    · cases isSet
      · exact fun h => (hq h).1
      · intro h
        simp only [if_true] at h
        simpa [h] using (ho rfl).1
    · have := hv.1
      cases hf : f.mode with
      | req => simpa [hf] using this
      | opt => simpa [hf, h1] using this
      | dflt d =>
        have : v ≠ d := fun h => h2 (by rw [hf, h])
        simpa [hf, this] using hv.1
theorem encKeep_alt : ∀ (cs : Comps) (ine : Bool) (i : Nat) (v : Val), cs.held.wf = true → cs.quietSets = true →
    (ine = true → cs.quiet = true) → cs.validAlt i v = true →
    encKeepAlt ine cs i v = encAlt false cs.held i v ∧ ∀ b, encAlt false cs.held i v = some b → b.isEmpty = false
  | .nil, _, _, _, _, _, _, h => by simp [Comps.validAlt] at h
  | .cons f t cs, ine, 0, v, hw, hs, hq, hv => by
    simp only [Comps.held, Comps.wf, Bool.and_eq_true] at hw
    simp only [Comps.quietSets, Bool.and_eq_true] at hs
    simp only [Comps.quiet, Bool.and_eq_true] at hq
    simp only [Comps.validAlt] at hv
    refine ⟨encKeep_held t ine v hw.1 hs.1 (fun h => (hq h).1) hv, fun b hb => ?_⟩
    have := enc_empty_iff t.held false v b hw.1 (by rw [Ty.held_valid]; exact hv) hb
    simpa using this
  | .cons f t cs, ine, i + 1, v, hw, hs, hq, hv => by
    simp only [Comps.held, Comps.wf, Bool.and_eq_true] at hw
    simp only [Comps.quietSets, Bool.and_eq_true] at hs
    simp only [Comps.quiet, Bool.and_eq_true] at hq
    simp only [Comps.validAlt] at hv
    exact encKeep_alt cs ine i v hw.2 hs.2 (fun h => (hq h).2) hv
end

/-! ## Values without empty collections -/

mutual
theorem enc_held : ∀ (t : Ty) (ine : Bool) (v : Val), t.wf = true → t.valid v = true → t.kept ine v = true →
    (ine = true → t.vanish v = false) → enc ine t v = enc false t.held v
  | .prim k a, _, v, _, _, _, _ => by simp only [Ty.held, enc]
  | .seq s a cs, ine, v, hw, hv, hk, hn => by
    cases v <;> simp only [Ty.valid, Bool.false_eq_true] at hv
    rename_i vs
    have hw' := hw
    simp only [Ty.wf, Bool.and_eq_true] at hw'
    have hv' := hv
    simp only [Bool.and_eq_true] at hv'
    simp only [Ty.kept] at hk
    have hc := enc_held_comps cs vs hw'.1.1.2 hv'.1 hk
    simp only [Ty.held, enc, ← hc, Comps.held_names, Bool.false_and, Bool.false_eq_true, if_false]
    rw [if_pos hv'.2, if_pos hv'.2]
    cases he : encComps cs vs with
    | none => rfl
    | some ps =>
      apply if_neg
      intro hemp
      simp only [Bool.and_eq_true] at hemp
      have h1 : enc ine (.seq s a cs) (.record vs) = some [] := by
        simp only [enc, he]
        rw [if_pos hv'.2]
        simp only [hemp.1, Bool.true_and]
        rw [if_pos hemp.2]
      have h2 := enc_empty_iff _ ine (.record vs) [] hw (by simpa [Ty.valid] using hv) h1
      rw [hn hemp.1] at h2
      simp at h2
  | .of s a t, ine, v, hw, hv, hk, hn => by
    cases v <;> simp only [Ty.valid, Bool.false_eq_true] at hv
    rename_i vs
    simp only [Ty.wf, Bool.and_eq_true] at hw
    simp only [Ty.held]
    simp only [Bool.and_eq_true, Vals.every_iff, List.all_eq_true] at hv
    simp only [Ty.kept, Bool.and_eq_true, Vals.every_iff, List.all_eq_true, Bool.not_eq_true', Bool.and_eq_false_iff] at hk
    have hc : mapOpt (enc ine t) vs.toList = mapOpt (enc false t.held) vs.toList :=
      mapOpt_congr _ (fun v hm => enc_held t ine v hw.2 (hv.1 v hm) (hk v hm).1 (fun h => by simpa [h] using (hk v hm).2))
    rw [enc_of_eq, enc_of_eq, ← hc, if_pos hv.2, if_pos hv.2]
    cases he : mapOpt (enc ine t) vs.toList with
    | none => rfl
    | some cs =>
      simp only [Bool.false_and, Bool.false_eq_true, if_false]
      apply if_neg
      intro hemp
      simp only [Bool.and_eq_true] at hemp
      rw [mapOpt_all2] at he
      have h1 : ∀ c ∈ cs, c.isEmpty = false := by
        intro c hm
        obtain ⟨u, hu, h⟩ := all2_mem_right he c hm
        have := enc_empty_iff _ ine u c hw.2 (hv.1 u hu) h
        rw [this]
        simpa [hemp.1] using (hk u hu).2
      have h2 := content_empty hemp.2 h1
      subst h2
      have h3 : vs.toList = [] := by simpa using all2_length he
      have h4 := hn hemp.1
      simp only [Ty.vanish, Vals.every_iff, h3, List.all_nil] at h4
      simp at h4
  | .choice a cs, ine, v, hw, hv, hk, hn => by
    cases v <;> simp only [Ty.valid, Bool.false_eq_true] at hv
    rename_i i v
    simp only [Ty.wf, Bool.and_eq_true] at hw
    simp only [Ty.kept] at hk
    simp only [Ty.vanish] at hn
    obtain ⟨hc, h1⟩ := enc_held_alt cs ine i v hw.1.2 hv hk hn
    simp only [Ty.held, enc, ← hc, Bool.false_and, Bool.false_eq_true, if_false]
    cases he : encAlt ine cs i v with
    | none => rfl
    | some b => simp [h1 b he]
  | .bad _, _, _, _, hv, _, _ => by simp [Ty.valid] at hv
theorem enc_held_comps : ∀ (cs : Comps) (vs : Vals), cs.wf = true → cs.valid vs = true → cs.kept vs = true →
    encComps cs vs = encComps cs.held vs
  | .nil, vs, _, _, _ => by cases vs <;> simp [encComps, Comps.held]
  | .cons f t cs, .nil, _, h, _ => by simp [Comps.valid] at h
  | .cons f t cs, .cons v vs, hw, hv, hk => by
    simp only [Comps.wf, Bool.and_eq_true] at hw
    simp only [Comps.valid, Bool.and_eq_true] at hv
    simp only [Comps.kept, Bool.and_eq_true] at hk
    have hcs := enc_held_comps cs vs hw.2 hv.2 hk.2
    simp only [Comps.held]
    by_cases ha : v = .absent
    · rw [encComps_absent ha, encComps_absent ha, hcs, Field.held_mode, Mode.held_isReq]
    · rw [encComps_present ha, encComps_present ha, hcs]
      simp only [Field.held_mode, Mode.held_isOpt, Ty.held_setKey, Mode.held_dflt ha]
      congr 1
      funext ps
      by_cases hm : f.mode = .dflt v
      · rw [if_pos hm, if_pos hm]
      · rw [if_neg hm, if_neg hm]
        have h1 := hv.1
        have h2 := hk.1
        rw [enc_held t f.mode.isOpt v hw.1 ?_ ?_ ?_]
        · cases hf : f.mode with
          | req => simpa [hf] using h1
          | opt => simpa [hf, ha] using h1
          | dflt d =>
            have : v ≠ d := fun h => hm (by rw [hf, h])
            simpa [hf, this] using h1
        · cases hf : f.mode with
          | req => simpa [hf, Mode.isOpt] using h2
          | opt =>
            simp only [hf, Bool.or_eq_true, beq_iff_eq, ha, false_or, Bool.and_eq_true] at h2
            exact h2.2
          | dflt d =>
            have : v ≠ d := fun h => hm (by rw [hf, h])
            simpa [hf, this, Mode.isOpt] using h2
        · intro hi
          cases hf : f.mode with
          | req => simp [hf, Mode.isOpt] at hi
          | opt =>
            simp only [hf, Bool.or_eq_true, beq_iff_eq, ha, false_or, Bool.and_eq_true] at h2
            simpa using h2.1
          | dflt d => simp [hf, Mode.isOpt] at hi
theorem enc_held_alt : ∀ (cs : Comps) (ine : Bool) (i : Nat) (v : Val), cs.wf = true → cs.validAlt i v = true →
    cs.keptAlt ine i v = true → (ine = true → cs.vanishAlt i v = false) →
    encAlt ine cs i v = encAlt false cs.held i v ∧ ∀ b, encAlt ine cs i v = some b → b.isEmpty = false
  | .nil, _, _, _, _, h, _, _ => by simp [Comps.validAlt] at h
  | .cons f t cs, ine, 0, v, hw, hv, hk, hn => by
    simp only [Comps.wf, Bool.and_eq_true] at hw
    simp only [Comps.validAlt] at hv
    simp only [Comps.keptAlt] at hk
    simp only [Comps.vanishAlt] at hn
    refine ⟨enc_held t ine v hw.1 hv hk hn, fun b hb => ?_⟩
    rw [enc_empty_iff t ine v b hw.1 hv hb]
    cases ine
    · rfl
    · simp [hn rfl]
  | .cons f t cs, ine, i + 1, v, hw, hv, hk, hn => by
    simp only [Comps.wf, Bool.and_eq_true] at hw
    simp only [Comps.validAlt] at hv
    simp only [Comps.keptAlt] at hk
    simp only [Comps.vanishAlt] at hn
    exact enc_held_alt cs ine i v hw.2 hv hk hn
end

end Asn1
end Verif
