import Verif.Spec.Typed
import Verif.Asn1.OpenDer

/-!
# Objects that are assembled with typed contents: encoding
-/

namespace Verif
namespace Asn1

mutual
theorem Typed.plainEq {D : Registry} {ok : Content → Prop} : ∀ {ine : Bool} {t : Ty} {v v' : Val} {w : OVal}, Typed D ok ine t v w →
    w.plain? = some v' → v' = v
  | _, _, _, _, _, .prim _ _ _ _, h => by simp [OVal.plain?] at h; exact h.symm
  | _, _, _, _, _, .seq _ _ _ _ _ _ hc, h => by
    simp only [OVal.plain?, Option.map_eq_some_iff] at h
    obtain ⟨vs, h1, h2⟩ := h
    rw [← h2, hc.plainEq h1]
  | _, _, _, _, _, .of _ _ _ _ _ _ he, h => by
    simp only [OVal.plain?, Option.map_eq_some_iff] at h
    obtain ⟨vs, h1, h2⟩ := h
    rw [← h2, he.plainEq h1]
  | _, _, _, _, _, .choice _ _ _ _ _ _ _ _ _ hw, h => by
    simp only [OVal.plain?, Option.map_eq_some_iff] at h
    obtain ⟨v, h1, h2⟩ := h
    rw [← h2, hw.plainEq h1]
theorem TypedE.plainEq {D : Registry} {ok : Content → Prop} : ∀ {ine : Bool} {t : Ty} {vs vs' : Vals} {ws : OVals}, TypedE D ok ine t vs ws →
    ws.plain? = some vs' → vs' = vs
  | _, _, _, _, _, .nil _ _, h => by simp [OVals.plain?] at h; exact h.symm
  | _, _, _, _, _, .cons _ _ _ _ _ _ h1 h2, h => by
    simp only [OVals.plain?] at h
    split at h
    · rename_i h3 h4
      simp at h
      rw [← h, h1.plainEq h3, h2.plainEq h4]
    · simp at h
theorem TypedC.plainEq {D : Registry} {ok : Content → Prop} : ∀ {ds : Comps} {us : Vals} {cs : Comps} {vs vs' : Vals} {ws : OVals}, TypedC D ok ds us cs vs ws →
    ws.plain? = some vs' → vs' = vs
  | _, _, _, _, _, _, .nil _ _, h => by simp [OVals.plain?] at h; exact h.symm
  | _, _, _, _, _, _, .cons _ _ _ _ _ _ _ _ _ h1 h2, h => by
    simp only [OVals.plain?] at h
    split at h
    · rename_i h3 h4
      simp at h
      rw [← h, h1.plainEq h3, h2.plainEq h4]
    · simp at h
theorem TypedF.plainEq {D : Registry} {ok : Content → Prop} : ∀ {ds : Comps} {us : Vals} {f : Field} {t : Ty} {v v' : Val} {w : OVal}, TypedF D ok ds us f t v w →
    w.plain? = some v' → v' = v
  | _, _, _, _, _, _, _, .absent _ _ _ _ _, h => by simp [OVal.plain?] at h; exact h.symm
  | _, _, _, _, _, _, _, .dflt _ _ _ _ _ _ _ _ _, h => by simp [OVal.plain?] at h; exact h.symm
  | _, _, _, _, _, _, _, .plain _ _ _ _ _ _ _ _ hw, h => hw.plainEq h
  | _, _, _, _, _, _, _, .unknown _ _ _ _ _ _ _ _ _ _ _ _ hw, h => hw.plainEq h
  | _, _, _, _, _, _, _, .known _ _ _ _ _ _ _ _ _ _ _ _ _ hw, h => hw.plainEq h
theorem TypedV.plainEq {D : Registry} {ok : Content → Prop} : ∀ {ine : Bool} {m : Ident} {k : Val} {t u : Ty} {v v' : Val} {w : OVal}, TypedV D ok ine m k t u v w →
    w.plain? = some v' → v' = v
  | _, _, _, _, _, _, _, _, .one _ _ _ _ _ _ _ _ _ _ _ _ _ _, h => by simp [OVal.plain?] at h
  | _, _, _, _, _, _, _, _, .many _ _ _ _ _ _ _ _ _ hl, h => by
    simp only [OVal.plain?, Option.map_eq_some_iff] at h
    obtain ⟨vs, h1, h2⟩ := h
    rw [← h2, hl.plainEq h1]
theorem TypedL.plainEq {D : Registry} {ok : Content → Prop} : ∀ {ine : Bool} {m : Ident} {k : Val} {t u : Ty} {vs vs' : Vals} {ws : OVals}, TypedL D ok ine m k t u vs ws →
    ws.plain? = some vs' → vs' = vs
  | _, _, _, _, _, _, _, _, .nil _ _ _ _ _, h => by simp [OVals.plain?] at h; exact h.symm
  | _, _, _, _, _, _, _, _, .cons _ _ _ _ _ _ _ _ _ _ _ _ _ _ _ _, h => by simp [OVals.plain?, OVal.plain?] at h
end

theorem Typed.absent {D : Registry} {ok : Content → Prop} {ine : Bool} {t : Ty} {v : Val} {w : OVal} (h : Typed D ok ine t v w) :
    w.isAbsent = true ↔ v = .absent := by
  cases h with
  | prim => cases v <;> simp [OVal.isAbsent]
  | _ => simp [OVal.isAbsent]

theorem TypedF.absentIff {D : Registry} {ok : Content → Prop} {ds : Comps} {us : Vals} {f : Field} {t : Ty} {v : Val} {w : OVal} (h : TypedF D ok ds us f t v w) :
    w.isAbsent = true ↔ v = .absent := by
  cases h with
  | absent => simp [OVal.isAbsent]
  | dflt => cases v <;> simp [OVal.isAbsent]
  | plain => rename_i h; exact Typed.absent h
  | unknown => rename_i h; exact Typed.absent h
  | known => rename_i h; cases h <;> simp [OVal.isAbsent]

theorem TypedC.names {D : Registry} {ok : Content → Prop} {ds : Comps} {us : Vals} : ∀ {cs : Comps} {vs : Vals} {ws : OVals}, TypedC D ok ds us cs vs ws →
    opresentNames cs ws = presentNames cs vs
  | _, _, _, .nil _ _ => rfl
  | _, _, _, .cons _ _ f t cs v vs w ws h1 h2 => by
    simp only [opresentNames, presentNames, h2.names]
    by_cases hv : v = .absent
    · rw [if_pos hv, if_pos (h1.absentIff.2 hv)]
    · rw [if_neg hv, if_neg (fun hw => hv (h1.absentIff.1 hw))]

theorem Typed.key {D : Registry} {ok : Content → Prop} {ine : Bool} {t : Ty} {v : Val} {w : OVal} (h : Typed D ok ine t v w) : osetKey t w = setKey t v := by
  cases h with
  | prim => rfl
  | seq => rfl
  | of => rfl
  | choice => rfl

/-- The chunk of one component: same octets, and same key unless opened. -/
theorem typedChunks_cons {D : Registry} {ok : Content → Prop} {ds : Comps} {us : Vals} {f : Field} {t : Ty} {cs : Comps} {v : Val} {vs : Vals} {w : OVal}
    {ws : OVals} (h : TypedF D ok ds us f t v w) (hrest : SameChunks cs.noOpen (oencComps cs ws) (encComps cs vs))
    (hd : f.mode = .dflt v → w.plain? = some v)
    (he : v ≠ .absent → f.mode ≠ .dflt v → oenc f.mode.isOpt t w = enc f.mode.isOpt t v)
    (hk : f.openType = none → v ≠ .absent → f.mode ≠ .dflt v → osetKey t w = setKey t v) :
    SameChunks (Comps.cons f t cs).noOpen (oencComps (.cons f t cs) (.cons w ws)) (encComps (.cons f t cs) (.cons v vs)) := by
  simp only [oencComps]
  by_cases hv : v = .absent
  · rw [encComps_absent hv]
    cases h1 : oencComps cs ws <;> cases h2 : encComps cs vs <;> rw [h1, h2] at hrest <;> simp only [SameChunks] at hrest
    · trivial
    · simp only [Option.bind_some]
      rw [if_pos (h.absentIff.2 hv)]
      cases f.mode.isReq
      · simp only [Bool.false_eq_true, if_false, SameChunks, Comps.noOpen, Bool.and_eq_true]
        exact ⟨hrest.1, fun h => hrest.2 h.2⟩
      · simp [SameChunks]
  · rw [encComps_present hv]
    cases h1 : oencComps cs ws <;> cases h2 : encComps cs vs <;> rw [h1, h2] at hrest <;> simp only [SameChunks] at hrest
    · trivial
    · simp only [Option.bind_some]
      rw [if_neg (fun hw => hv (h.absentIff.1 hw))]
      by_cases hm : f.mode = .dflt v
      · rw [if_pos hm]
        have hw := hd hm
        simp only [hw, Option.isSome_some, Option.getD_some, hm, Bool.true_and, decide_true, if_true,
          SameChunks, Comps.noOpen, Bool.and_eq_true]
        exact ⟨hrest.1, fun h => hrest.2 h.2⟩
      · rw [if_neg hm]
        have : ¬ ((w.plain?.isSome && decide (f.mode = .dflt (w.plain?.getD .absent))) = true) := by
          intro hc
          simp only [Bool.and_eq_true, decide_eq_true_eq] at hc
          cases hp : w.plain? with
          | none => rw [hp] at hc; simp at hc
          | some v' =>
            rw [hp, Option.getD_some] at hc
            exact hm (by rw [hc.2, h.plainEq hp])
        rw [if_neg this, he hv hm]
        cases enc f.mode.isOpt t v with
        | none => trivial
        | some b =>
          simp only [Option.map_some, SameChunks, List.map_cons, Comps.noOpen, Bool.and_eq_true, Option.isNone_iff_eq_none]
          exact ⟨by rw [hrest.1], fun h => by rw [hk h.1 hv hm, hrest.2 h.2]⟩

theorem TypedE.length {D : Registry} {ok : Content → Prop} {ine : Bool} {t : Ty} : ∀ {vs : Vals} {ws : OVals}, TypedE D ok ine t vs ws → ws.length = vs.length
  | _, _, .nil _ _ => rfl
  | _, _, .cons _ _ _ _ _ _ _ h => by simp [OVals.length, Vals.length, h.length]

theorem TypedL.length {D : Registry} {ok : Content → Prop} {ine : Bool} {m : Ident} {k : Val} {t u : Ty} : ∀ {vs : Vals} {ws : OVals}, TypedL D ok ine m k t u vs ws → ws.length = vs.length
  | _, _, .nil _ _ _ _ _ => rfl
  | _, _, .cons _ _ _ _ _ _ _ _ _ _ _ _ _ _ _ h => by simp [OVals.length, Vals.length, h.length]

/-- The dictionaries have types of a kind `good`, and open type fields in such types differ from what they hold. -/
structure Closed (D : Registry) (ok : Content → Prop) (good : Ty → Prop) : Prop where
  governed : ∀ t, good t → t.each Ty.governed = true
  openOk : ∀ t, good t → t.each Ty.openOk = true
  fits : ∀ t v c, good t → c ∈ t.fields D v → ok c → c.fits
  stable : ∀ t, good t → t.stable = true
  types : ∀ t v c, good t → c ∈ t.fields D v → ok c → good c.type ∧ c.type.wf = true

mutual
/-- Every field is one of those allowed. -/
theorem Typed.oks {D : Registry} {ok : Content → Prop} : ∀ {ine : Bool} {t : Ty} {v : Val} {w : OVal}, Typed D ok ine t v w →
    ∀ c ∈ t.fields D v, ok c
  | _, _, _, _, .prim _ _ _ _ => by simp [Ty.fields]
  | _, _, _, _, .seq _ _ _ _ _ _ hc => by simp only [Ty.fields]; exact hc.oks
  | _, _, _, _, .of _ _ _ _ _ _ he => by
    simp only [Ty.fields, List.mem_flatMap]
    rintro c ⟨v, hv, hc⟩
    exact he.oks v hv c hc
  | _, _, _, _, .choice _ _ _ _ _ _ _ _ hi hw => by
    simp only [Ty.fields, fieldsAlt_get hi]
    exact hw.oks
theorem TypedE.oks {D : Registry} {ok : Content → Prop} : ∀ {ine : Bool} {t : Ty} {vs : Vals} {ws : OVals},
    TypedE D ok ine t vs ws → ∀ v ∈ vs.toList, ∀ c ∈ t.fields D v, ok c
  | _, _, _, _, .nil _ _ => by simp [Vals.toList]
  | _, _, _, _, .cons _ _ _ _ _ _ h1 h2 => by
    simp only [Vals.toList, List.mem_cons, forall_eq_or_imp]
    exact ⟨h1.oks, h2.oks⟩
theorem TypedC.oks {D : Registry} {ok : Content → Prop} : ∀ {ds : Comps} {us : Vals} {cs : Comps} {vs : Vals} {ws : OVals},
    TypedC D ok ds us cs vs ws → ∀ c ∈ Comps.fields D ds us cs vs, ok c
  | _, _, _, _, _, .nil _ _ => by simp [Comps.fields]
  | _, _, _, _, _, .cons _ _ _ _ _ _ _ _ _ h1 h2 => by
    simp only [Comps.fields, List.mem_append]
    rintro c ((h | h) | h)
    · exact h1.oks.1 c h
    · exact h1.oks.2 c h
    · exact h2.oks c h
theorem TypedF.oks {D : Registry} {ok : Content → Prop} : ∀ {ds : Comps} {us : Vals} {f : Field} {t : Ty} {v : Val} {w : OVal},
    TypedF D ok ds us f t v w → (∀ c ∈ t.fields D v, ok c) ∧ ∀ c ∈ openFields D ds us f t v, ok c
  | _, _, _, _, _, _, .absent _ _ _ t _ => by
    refine ⟨by simp [fields_absent], ?_⟩
    simp only [openFields, octetsIn]
    intro c hc
    split at hc
    · simp at hc
    · split at hc
      · simp at hc
      · split at hc <;> simp at hc
  | _, _, _, _, _, _, .dflt _ _ _ _ _ _ _ ho hw => ⟨hw.oks, by simp [openFields, ho]⟩
  | _, _, _, _, _, _, .plain _ _ _ _ _ _ ho _ hw => ⟨hw.oks, by simp [openFields, ho]⟩
  | _, _, _, _, _, _, .unknown _ _ _ _ _ _ _ _ ho hg hr _ hw => ⟨hw.oks, by simp [openFields, ho, hg, hr]⟩
  | _, _, _, _, _, _, .known _ _ _ _ _ _ _ _ _ ho hg hr _ hw => by
    refine ⟨hw.oks.1, ?_⟩
    simp only [openFields, ho, hg, hr, List.mem_map]
    rintro c ⟨b, hb, rfl⟩
    exact hw.oks.2 b hb
theorem TypedV.oks {D : Registry} {ok : Content → Prop} : ∀ {ine : Bool} {m : Ident} {k : Val} {t u : Ty} {v : Val} {w : OVal},
    TypedV D ok ine m k t u v w → (∀ c ∈ t.fields D v, ok c) ∧ ∀ b ∈ octetsIn v, ok ⟨ine, m, k, t.item, u, b⟩
  | _, _, _, _, _, _, _, .one _ _ _ _ _ _ _ _ _ _ _ _ ho _ => by
    refine ⟨by simp [Ty.fields], ?_⟩
    simp only [octetsIn, List.mem_singleton, forall_eq]
    exact ho
  | _, _, _, _, _, _, _, .many _ _ _ _ _ _ _ _ _ hl => by
    simp only [Ty.fields, List.mem_flatMap, octetsIn, List.mem_filterMap]
    refine ⟨?_, ?_⟩
    · rintro c ⟨v, hv, hc⟩
      obtain ⟨b, rfl, _⟩ := hl.oks v hv
      rename_i t _ _ _
      cases t <;> simp [Ty.fields] at hc
    · rintro b ⟨v, hv, hb⟩
      obtain ⟨b', rfl, h⟩ := hl.oks v hv
      simp only [Option.some.injEq] at hb
      rw [← hb]
      exact h
theorem TypedL.oks {D : Registry} {ok : Content → Prop} : ∀ {ine : Bool} {m : Ident} {k : Val} {t u : Ty} {vs : Vals} {ws : OVals},
    TypedL D ok ine m k t u vs ws → ∀ v ∈ vs.toList, ∃ b, v = .octets b ∧ ok ⟨ine, m, k, t, u, b⟩
  | _, _, _, _, _, _, _, .nil _ _ _ _ _ => by simp [Vals.toList]
  | _, _, _, _, _, _, _, .cons _ _ _ _ _ b _ _ _ _ _ _ _ ho _ hl => by
    simp only [Vals.toList, List.mem_cons, forall_eq_or_imp]
    exact ⟨⟨b, rfl, ho⟩, hl.oks⟩
end

/-- The octets in an open type field of type `t`. -/
theorem typed_put {ine : Bool} {m : Ident} {k : Val} {t u : Ty} {b : Bytes} (hc : carries t = true)
    (hf : Content.fits ⟨ine, m, k, t, u, b⟩) : putOpen t u b = enc ine t (.octets b) := by
  obtain ⟨k, a, rfl, hk⟩ := carries_prim hc
  refine put_eq hk ?_
  by_cases h : sameType (.prim k a) u = true
  · simp only [sameType, Bool.and_eq_true, decide_eq_true_eq] at h
    exact .inr (hf h.1 h.2)
  · simp only [Bool.not_eq_true] at h
    exact .inl h

mutual
/-- An object with typed contents encodes to the same octets as the object with the octets. -/
theorem Typed.encEq {D : Registry} {ok : Content → Prop} {good : Ty → Prop} (G : Closed D ok good) : ∀ {ine : Bool} {t : Ty} {v : Val} {w : OVal},
    Typed D ok ine t v w → t.each Ty.governed = true → (∀ c ∈ t.fields D v, c.fits ∧ good c.type) → oenc ine t w = enc ine t v
  | _, _, _, _, .prim _ _ _ _, _, _ => by simp [oenc]
  | _, _, _, _, .seq ine s a cs vs ws hc, hg, hf => by
    simp only [Ty.each, Bool.and_eq_true] at hg
    simp only [Ty.fields] at hf
    have hb : Comps.governedBy cs cs = true ∧ (s = true → cs.noOpen = true) := by
      cases s with
      | false => exact ⟨hg.1, by simp⟩
      | true =>
        have := hg.1
        simp only [Ty.governed, Bool.and_eq_true] at this
        exact ⟨governedBy_noOpen cs cs this.1, fun _ => this.1⟩
    have h1 := hc.names
    have h2 := hc.encEq G hb.1 hg.2 hf
    simp only [oenc, Asn1.enc, h1]
    split
    · cases h3 : oencComps cs ws <;> cases h4 : encComps cs vs <;> rw [h3, h4] at h2 <;> simp only [SameChunks] at h2
      · rename_i ps qs
        have : (if s then sortBy tagsLe Prod.fst ps else ps).flatMap Prod.snd =
            (if s then sortBy tagsLe Prod.fst qs else qs).flatMap Prod.snd := by
          cases s with
          | true => rw [h2.2 (hb.2 rfl)]
          | false =>
            simp only [Bool.false_eq_true, if_false, List.flatMap_def]
            rw [h2.1]
        simp only [this]
    · rfl
  | _, _, _, _, .of ine s a t vs ws he, hg, hf => by
    simp only [Ty.each, Bool.and_eq_true] at hg
    simp only [Ty.fields, List.mem_flatMap] at hf
    exact of_eq he.length (he.encEq G hg.2 (fun v hv c hc => hf c ⟨v, hv, hc⟩))
  | _, _, _, _, .choice ine a cs i f t v w hi hw, hg, hf => by
    simp only [Ty.each, Bool.and_eq_true] at hg
    simp only [Ty.fields, fieldsAlt_get hi] at hf
    simp only [oenc, hi, hw.encEq G (each_get hi hg.2) hf, Asn1.enc]
    rw [encAlt_get hi]
    cases enc ine t v <;> rfl
theorem TypedE.encEq {D : Registry} {ok : Content → Prop} {good : Ty → Prop} (G : Closed D ok good) : ∀ {ine : Bool} {t : Ty} {vs : Vals} {ws : OVals},
    TypedE D ok ine t vs ws → t.each Ty.governed = true → (∀ v ∈ vs.toList, ∀ c ∈ t.fields D v, c.fits ∧ good c.type) →
    (oencElems ine t ws).map (List.map Prod.fst) = mapOpt (enc ine t) vs.toList
  | _, _, _, _, .nil _ _, _, _ => by simp [oencElems, Vals.toList, mapOpt]
  | _, _, _, _, .cons ine t v w vs ws h1 h2, hg, hf => by
    simp only [Vals.toList, List.mem_cons, forall_eq_or_imp] at hf
    have h3 := h1.encEq G hg hf.1
    have h4 := h2.encEq G hg hf.2
    simp only [oencElems, Vals.toList, mapOpt, h3, ← h4]
    cases enc ine t v <;> cases oencElems ine t ws <;> rfl
theorem TypedC.encEq {D : Registry} {ok : Content → Prop} {good : Ty → Prop} (G : Closed D ok good) : ∀ {ds : Comps} {us : Vals} {cs : Comps} {vs : Vals} {ws : OVals},
    TypedC D ok ds us cs vs ws → Comps.governedBy ds cs = true → cs.each Ty.governed = true →
    (∀ c ∈ Comps.fields D ds us cs vs, c.fits ∧ good c.type) → SameChunks cs.noOpen (oencComps cs ws) (encComps cs vs)
  | _, _, _, _, _, .nil _ _, _, _, _ => by simp [oencComps, encComps, SameChunks]
  | _, _, _, _, _, .cons ds us f t cs v vs w ws h1 h2, hb, hg, hf => by
    simp only [Comps.governedBy, Bool.and_eq_true] at hb
    simp only [Comps.each, Bool.and_eq_true] at hg
    simp only [Comps.fields, List.mem_append] at hf
    have h3 := h1.encEq G hb.1 hg.1 (fun c hc => hf c (.inl (.inl hc))) (fun c hc => hf c (.inl (.inr hc)))
    have h4 := h2.encEq G hb.2 hg.2 (fun c hc => hf c (.inr hc))
    refine typedChunks_cons h1 h4 ?_ h3 ?_
    · intro hm
      cases h1 with
      | absent => rfl
      | dflt => rfl
      | plain => rename_i hp _; exact absurd hm hp
      | unknown => rename_i hp _; exact absurd hm hp
      | known => rename_i hp _; exact absurd hm hp
    · intro ho hv hm
      cases h1 with
      | absent => exact absurd rfl hv
      | dflt => simp_all
      | plain => rename_i h; exact Typed.key h
      | unknown => simp_all
      | known => simp_all
theorem TypedF.encEq {D : Registry} {ok : Content → Prop} {good : Ty → Prop} (G : Closed D ok good) : ∀ {ds : Comps} {us : Vals} {f : Field} {t : Ty} {v : Val} {w : OVal},
    TypedF D ok ds us f t v w → (match f.openType with
     | none => true
     | some o => selects (ds.find o.governor) && carriesAll t && (f.mode.isReq || f.mode.isOpt)) = true →
    t.each Ty.governed = true → (∀ c ∈ t.fields D v, c.fits ∧ good c.type) →
    (∀ c ∈ openFields D ds us f t v, c.fits ∧ good c.type) →
    v ≠ .absent → f.mode ≠ .dflt v → oenc f.mode.isOpt t w = enc f.mode.isOpt t v
  | _, _, _, _, _, _, .absent _ _ _ _ _, _, _, _, _, h, _ => absurd rfl h
  | _, _, _, _, _, _, .dflt _ _ _ _ _ _ hm _ _, _, _, _, _, _, h => absurd hm h
  | _, _, _, _, _, _, .plain _ _ _ _ _ _ _ _ hw, _, hg, hf, _, _, _ => hw.encEq G hg hf
  | _, _, _, _, _, _, .unknown _ _ _ _ _ _ _ _ _ _ _ _ hw, _, hg, hf, _, _, _ => hw.encEq G hg hf
  | _, _, _, _, _, _, .known _ _ _ _ _ _ _ _ _ ho hr1 hr _ hw, hb, _, _, hk, _, _ => by
    simp only [ho, Bool.and_eq_true] at hb
    simp only [openFields, ho, hr1, hr, List.mem_map] at hk
    exact hw.encEq G hb.1.2 (fun b hb => hk _ ⟨b, hb, rfl⟩)
theorem TypedV.encEq {D : Registry} {ok : Content → Prop} {good : Ty → Prop} (G : Closed D ok good) : ∀ {ine : Bool} {m : Ident} {k : Val} {t u : Ty} {v : Val} {w : OVal},
    TypedV D ok ine m k t u v w → carriesAll t = true →
    (∀ b ∈ octetsIn v, Content.fits ⟨ine, m, k, t.item, u, b⟩ ∧ good u) → oenc ine t w = enc ine t v
  | _, _, _, _, _, _, _, .one ine m k p a u b v w hv he hn ho hw, hc, hf => by
    simp only [octetsIn, List.mem_singleton, forall_eq] at hf
    have h1 := hw.encEq G (G.governed u hf.2) (fun c hc => ⟨G.fits u v c hf.2 hc (hw.oks c hc), (G.types u v c hf.2 hc (hw.oks c hc)).1⟩)
    simp only [oenc, h1, he]
    exact typed_put hc hf.1
  | _, _, _, _, _, _, _, .many ine m k s a t u vs ws hl, hc, hf => of_eq hl.length
      (hl.encEq G hc (fun b hb => hf b (List.mem_filterMap.2 ⟨_, hb, rfl⟩)))
theorem TypedL.encEq {D : Registry} {ok : Content → Prop} {good : Ty → Prop} (G : Closed D ok good) : ∀ {ine : Bool} {m : Ident} {k : Val} {t u : Ty} {vs : Vals} {ws : OVals},
    TypedL D ok ine m k t u vs ws → carries t = true →
    (∀ b, .octets b ∈ vs.toList → Content.fits ⟨ine, m, k, t, u, b⟩ ∧ good u) →
    (oencElems ine t ws).map (List.map Prod.fst) = mapOpt (enc ine t) vs.toList
  | _, _, _, _, _, _, _, .nil _ _ _ _ _, _, _ => by simp [oencElems, Vals.toList, mapOpt]
  | _, _, _, _, _, _, _, .cons ine m k t u b v w vs ws hv he hn ho hw hl, hc, hf => by
    simp only [Vals.toList, List.mem_cons] at hf
    have hb := hf b (.inl rfl)
    have h1 := hw.encEq G (G.governed u hb.2) (fun c hc => ⟨G.fits u v c hb.2 hc (hw.oks c hc), (G.types u v c hb.2 hc (hw.oks c hc)).1⟩)
    have h4 := hl.encEq G hc (fun b hb => hf b (.inr hb))
    have h3 : oenc ine t (.opened u w) = enc ine t (.octets b) := by
      obtain ⟨k, a, rfl, hk⟩ := carries_prim hc
      simp only [oenc, h1, he]
      exact typed_put hc hb.1
    simp only [oencElems, Vals.toList, mapOpt, h3, ← h4]
    cases enc ine t (.octets b) <;> cases oencElems ine t ws <;> rfl
end

end Asn1
end Verif
