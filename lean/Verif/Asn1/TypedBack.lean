import Verif.Asn1.Typed

/-!
# Objects that are assembled with typed contents: what comes back
-/

namespace Verif
namespace Asn1

/-! ## Fields of the same value -/

theorem all2_mem {α β : Type} {p : α → β → Prop} : ∀ {l : List α} {m : List β}, all2 p l m → ∀ b ∈ m, ∃ a ∈ l, p a b
  | [], [], _, _, h => by simp at h
  | a :: as, b :: bs, h, c, hc => by
    simp only [all2] at h
    simp only [List.mem_cons] at hc
    rcases hc with rfl | hc
    · exact ⟨a, List.mem_cons_self, h.1⟩
    · obtain ⟨a', h1, h2⟩ := all2_mem h.2 c hc
      exact ⟨a', List.mem_cons_of_mem _ h1, h2⟩
  | [], _ :: _, h, _, _ => by simp [all2] at h
  | _ :: _, [], h, _, _ => by simp [all2] at h

/-- Elements of the same collection. -/
theorem of_same_mem {ine s : Bool} {a : Attrs} {t : Ty} {vs ws : Vals} (h : (Ty.of s a t).same ine (.list vs) (.list ws)) :
    ∀ w ∈ ws.toList, ∃ v ∈ vs.toList, t.same ine v w := by
  simp only [Ty.same] at h
  obtain ⟨us, h1, h2⟩ := h
  intro w hw
  obtain ⟨v, hv, h3⟩ := all2_mem h2 w hw
  refine ⟨v, ?_, h3⟩
  have := (List.mem_filter.1 hv).1
  cases s with
  | true => exact h1.mem_iff.1 this
  | false => simp only [Bool.false_eq_true, if_false] at h1; rwa [← h1]

/-- A governor is the same in the same value. -/
theorem fieldVal_same {n : String} : ∀ {ds : Comps} {us us' : Vals}, ds.same us us' → selects (ds.find n) = true →
    fieldVal n ds us' = fieldVal n ds us
  | .nil, .nil, .nil, _, h => by simp [Comps.find, selects] at h
  | .cons f t cs, .cons v vs, .cons w ws, h, hs => by
    simp only [Comps.same] at h
    simp only [Comps.find] at hs
    simp only [fieldVal]
    by_cases hn : f.name = n
    · simp only [hn, if_true] at hs ⊢
      obtain ⟨k, a, rfl, hm⟩ : ∃ k a, t = .prim k a ∧ f.mode.isReq = true := by
        cases t with
        | prim k a => cases k <;> simp [selects] at hs <;> exact ⟨_, _, rfl, hs⟩
        | _ => simp [selects] at hs
      have h1 := h.1
      cases hf : f.mode <;> rw [hf] at hm <;> simp only [Mode.isReq, Bool.false_eq_true] at hm
      simp only [hf, Ty.same] at h1
      rw [h1]
    · simp only [if_neg hn] at hs ⊢
      exact fieldVal_same h.2 hs
  | .nil, .nil, .cons _ _, h, _ => by simp [Comps.same] at h
  | .nil, .cons _ _, _, h, _ => by simp [Comps.same] at h
  | .cons _ _ _, .nil, _, h, _ => by simp [Comps.same] at h
  | .cons _ _ _, .cons _ _, .nil, h, _ => by simp [Comps.same] at h

/-- The octets in an open type field are the same in the same value. -/
theorem octetsIn_same {ine : Bool} {t : Ty} {v w : Val} (hc : carriesAll t = true) (h : t.same ine v w) :
    ∀ b ∈ octetsIn w, b ∈ octetsIn v := by
  cases t with
  | prim k a => simp only [Ty.same] at h; rw [h]; exact fun _ h => h
  | of s a t =>
    obtain ⟨k, a', rfl, _⟩ := carries_prim hc
    cases v <;> cases w <;> try (simp [Ty.same] at h; done)
    rename_i vs ws
    intro b hb
    simp only [octetsIn, List.mem_filterMap] at hb ⊢
    obtain ⟨x, hx, hb⟩ := hb
    obtain ⟨y, hy, hs⟩ := of_same_mem h x hx
    simp only [Ty.same] at hs
    subst hs
    exact ⟨y, hy, hb⟩
  | _ => simp [carriesAll, carries] at hc

mutual
/-- The same value has the same fields. -/
theorem Ty.fields_same {D : Registry} : ∀ (t : Ty) {ine : Bool} {v w : Val}, t.each Ty.governed = true → t.same ine v w →
    ∀ c ∈ t.fields D w, c ∈ t.fields D v
  | .prim _ _, _, _, _, _, _ => by simp [Ty.fields]
  | .bad _, _, _, _, _, _ => by simp [Ty.fields]
  | .seq s a cs, ine, v, w, hg, h => by
    simp only [Ty.each, Bool.and_eq_true] at hg
    have hb : Comps.governedBy cs cs = true := by
      cases s with
      | false => exact hg.1
      | true =>
        have := hg.1
        simp only [Ty.governed, Bool.and_eq_true] at this
        exact governedBy_noOpen cs cs this.1
    cases v <;> cases w <;> try (simp [Ty.same] at h; done)
    rename_i vs ws
    simp only [Ty.same] at h
    simp only [Ty.fields]
    exact Comps.fields_same cs (fun n hn => fieldVal_same h hn) hb hg.2 h
  | .of s a t, ine, v, w, hg, h => by
    simp only [Ty.each, Bool.and_eq_true] at hg
    cases v <;> cases w <;> try (simp [Ty.same] at h; done)
    rename_i vs ws
    simp only [Ty.fields, List.mem_flatMap]
    rintro c ⟨w, hw, hc⟩
    obtain ⟨v, hv, hs⟩ := of_same_mem h w hw
    exact ⟨v, hv, Ty.fields_same t hg.2 hs c hc⟩
  | .choice a cs, ine, v, w, hg, h => by
    simp only [Ty.each, Bool.and_eq_true] at hg
    cases v <;> cases w <;> try (simp [Ty.same] at h; done)
    simp only [Ty.same] at h
    obtain ⟨rfl, h⟩ := h
    simp only [Ty.fields]
    exact Comps.fieldsAlt_same cs hg.2 h
theorem Comps.fields_same {D : Registry} {ds : Comps} {us us' : Vals} : ∀ (cs : Comps) {vs ws : Vals},
    (∀ n, selects (ds.find n) = true → fieldVal n ds us' = fieldVal n ds us) →
    Comps.governedBy ds cs = true → cs.each Ty.governed = true → cs.same vs ws →
    ∀ c ∈ Comps.fields D ds us' cs ws, c ∈ Comps.fields D ds us cs vs
  | .nil, _, _, _, _, _, _ => by simp [Comps.fields]
  | .cons f t cs, .cons v vs, .cons w ws, hn, hb, hg, h => by
    simp only [Comps.governedBy, Bool.and_eq_true] at hb
    simp only [Comps.each, Bool.and_eq_true] at hg
    simp only [Comps.same] at h
    have h1 : v = w ∨ w = .absent ∨ ∃ ine, t.same ine v w := by
      have h1 := h.1
      cases hm : f.mode with
      | req => simp only [hm] at h1; exact .inr (.inr ⟨_, h1⟩)
      | opt =>
        simp only [hm] at h1
        rcases h1 with h1 | h1 | h1
        · exact .inr (.inl h1.2)
        · exact .inr (.inl h1.2)
        · exact .inr (.inr ⟨_, h1.2⟩)
      | dflt d =>
        simp only [hm] at h1
        rcases h1 with h1 | h1
        · exact .inl (h1.1.trans h1.2.symm)
        · exact .inr (.inr ⟨_, h1.2⟩)
    intro c hc
    change c ∈ t.fields D w ++ openFields D ds us' f t w ++ Comps.fields D ds us' cs ws at hc
    change c ∈ t.fields D v ++ openFields D ds us f t v ++ Comps.fields D ds us cs vs
    simp only [List.mem_append] at hc ⊢
    rcases hc with (hc | hc) | hc
    · rcases h1 with h1 | h1 | ⟨i, h1⟩
      · rw [h1]; exact .inl (.inl hc)
      · rw [h1, fields_absent] at hc; simp at hc
      · exact .inl (.inl (Ty.fields_same t hg.1 h1 c hc))
    · refine .inl (.inr ?_)
      simp only [openFields] at hc ⊢
      cases ho : f.openType with
      | none => simp [ho] at hc
      | some o =>
        have hb := hb.1
        simp only [ho, Bool.and_eq_true] at hb
        simp only [ho, hn _ hb.1.1] at hc ⊢
        cases hv : fieldVal o.governor ds us with
        | none => simp [hv] at hc
        | some g =>
          simp only [hv] at hc ⊢
          cases hu : D o.map g with
          | none => simp [hu] at hc
          | some u =>
            simp only [hu, List.mem_map] at hc ⊢
            obtain ⟨b, h2, h3⟩ := hc
            refine ⟨b, ?_, h3⟩
            rcases h1 with h1 | h1 | ⟨i, h1⟩
            · rwa [h1]
            · rw [h1] at h2; simp [octetsIn] at h2
            · exact octetsIn_same hb.1.2 h1 b h2
    · exact .inr (Comps.fields_same cs hn hb.2 hg.2 h.2 c hc)
  | .cons _ _ _, .nil, _, _, _, _, h => by simp [Comps.same] at h
  | .cons _ _ _, .cons _ _, .nil, _, _, _, h => by simp [Comps.same] at h
theorem Comps.fieldsAlt_same {D : Registry} : ∀ (cs : Comps) {ine : Bool} {i : Nat} {v w : Val}, cs.each Ty.governed = true →
    cs.sameAlt ine i v w → ∀ c ∈ cs.fieldsAlt D i w, c ∈ cs.fieldsAlt D i v
  | .nil, _, _, _, _, _, _ => by simp [Comps.fieldsAlt]
  | .cons _ t _, _, 0, _, _, hg, h => by
    simp only [Comps.each, Bool.and_eq_true] at hg
    simp only [Comps.sameAlt] at h
    simp only [Comps.fieldsAlt]
    exact Ty.fields_same t hg.1 h
  | .cons _ _ cs, _, i + 1, _, _, hg, h => by
    simp only [Comps.each, Bool.and_eq_true] at hg
    simp only [Comps.sameAlt] at h
    simp only [Comps.fieldsAlt]
    exact Comps.fieldsAlt_same cs hg.2 h
end

/-! ## What comes back -/

/-- What was written as `b` can be read as `u`, with open types. -/
def Back (D : Registry) (u : Ty) (b : Bytes) : Prop :=
  ∃ x w, decode u b = some (x, []) ∧ odecode D (b.length + 1) u b = some (w, [])

/-- The contents come back, so that the whole does. -/
theorem typed_back {D : Registry} {ok : Content → Prop} {good : Ty → Prop} (hD : D.openOk) (G : Closed D ok good) {ine : Bool}
    {t : Ty} {v : Val} {b : Bytes} (ht : good t) (hw : t.wf = true) (hv : t.valid v = true)
    (he : enc ine t v = some b) (hn : ine = true → t.vanish v = false)
    (hf : ∀ c ∈ t.fields D v, Back D c.type c.octets) : Back D t b := by
  have hg := G.governed t ht
  rcases rt t ine v b hw hv he with ⟨_, h1, h2⟩ | ⟨_, x, v', h1, _, h3, h4, _⟩
  · rw [hn h1] at h2; simp at h2
  have hd : decode t b = some (v', []) := by simp only [decode, h1.read, h3]
  suffices h : ∃ w, odecode D (b.length + 1) t b = some (w, []) from h.elim fun w h => ⟨v', w, hd, h⟩
  refine odecode_complete hD (G.openOk t ht) hg b [] v' hd ?_
  intro p hp
  rw [Ty.contents_fields, List.mem_map] at hp
  obtain ⟨c, hc, rfl⟩ := hp
  obtain ⟨_, w, _, hw⟩ := hf c (Ty.fields_same t hg h4 c hc)
  simp [hw]

mutual
/-- All fields come back. -/
theorem Typed.backs {D : Registry} {ok : Content → Prop} {good : Ty → Prop} (hD : D.openOk) (G : Closed D ok good) : ∀ {ine : Bool} {t : Ty} {v : Val} {w : OVal}, Typed D ok ine t v w →
    (∀ c ∈ t.fields D v, good c.type ∧ c.type.wf = true) → ∀ c ∈ t.fields D v, Back D c.type c.octets
  | _, _, _, _, .prim _ _ _ _, _ => by simp [Ty.fields]
  | _, _, _, _, .seq _ _ _ _ _ _ hc, ht => by simp only [Ty.fields] at ht ⊢; exact hc.backs hD G ht
  | _, _, _, _, .of _ _ _ _ _ _ he, ht => by
    simp only [Ty.fields, List.mem_flatMap] at ht ⊢
    rintro c ⟨v, hv, hc⟩
    exact he.backs hD G (fun v hv c hc => ht c ⟨v, hv, hc⟩) v hv c hc
  | _, _, _, _, .choice _ _ _ _ _ _ _ _ hi hw, ht => by
    simp only [Ty.fields, fieldsAlt_get hi] at ht ⊢
    exact hw.backs hD G ht
theorem TypedE.backs {D : Registry} {ok : Content → Prop} {good : Ty → Prop} (hD : D.openOk) (G : Closed D ok good) : ∀ {ine : Bool} {t : Ty} {vs : Vals} {ws : OVals},
    TypedE D ok ine t vs ws → (∀ v ∈ vs.toList, ∀ c ∈ t.fields D v, good c.type ∧ c.type.wf = true) →
    ∀ v ∈ vs.toList, ∀ c ∈ t.fields D v, Back D c.type c.octets
  | _, _, _, _, .nil _ _, _ => by simp [Vals.toList]
  | _, _, _, _, .cons _ _ _ _ _ _ h1 h2, ht => by
    simp only [Vals.toList, List.mem_cons, forall_eq_or_imp] at ht ⊢
    exact ⟨h1.backs hD G ht.1, h2.backs hD G ht.2⟩
theorem TypedC.backs {D : Registry} {ok : Content → Prop} {good : Ty → Prop} (hD : D.openOk) (G : Closed D ok good) : ∀ {ds : Comps} {us : Vals} {cs : Comps} {vs : Vals} {ws : OVals},
    TypedC D ok ds us cs vs ws → (∀ c ∈ Comps.fields D ds us cs vs, good c.type ∧ c.type.wf = true) →
    ∀ c ∈ Comps.fields D ds us cs vs, Back D c.type c.octets
  | _, _, _, _, _, .nil _ _, _ => by simp [Comps.fields]
  | _, _, _, _, _, .cons _ _ _ _ _ _ _ _ _ h1 h2, ht => by
    simp only [Comps.fields, List.mem_append] at ht ⊢
    have h3 := h1.backs hD G (fun c hc => ht c (.inl (.inl hc))) (fun c hc => ht c (.inl (.inr hc)))
    rintro c ((h | h) | h)
    · exact h3.1 c h
    · exact h3.2 c h
    · exact h2.backs hD G (fun c hc => ht c (.inr hc)) c h
theorem TypedF.backs {D : Registry} {ok : Content → Prop} {good : Ty → Prop} (hD : D.openOk) (G : Closed D ok good) : ∀ {ds : Comps} {us : Vals} {f : Field} {t : Ty} {v : Val} {w : OVal},
    TypedF D ok ds us f t v w → (∀ c ∈ t.fields D v, good c.type ∧ c.type.wf = true) →
    (∀ c ∈ openFields D ds us f t v, good c.type ∧ c.type.wf = true) →
    (∀ c ∈ t.fields D v, Back D c.type c.octets) ∧ ∀ c ∈ openFields D ds us f t v, Back D c.type c.octets
  | _, _, _, _, _, _, .absent _ _ _ t _, _, _ => by
    refine ⟨by simp [fields_absent], ?_⟩
    simp only [openFields, octetsIn]
    intro c hc
    split at hc
    · simp at hc
    · split at hc
      · simp at hc
      · split at hc <;> simp at hc
  | _, _, _, _, _, _, .dflt _ _ _ _ _ _ _ ho hw, ht, _ => ⟨hw.backs hD G ht, by simp [openFields, ho]⟩
  | _, _, _, _, _, _, .plain _ _ _ _ _ _ ho _ hw, ht, _ => ⟨hw.backs hD G ht, by simp [openFields, ho]⟩
  | _, _, _, _, _, _, .unknown _ _ _ _ _ _ _ _ ho hg hr _ hw, ht, _ => ⟨hw.backs hD G ht, by simp [openFields, ho, hg, hr]⟩
  | _, _, _, _, _, _, .known _ _ _ _ _ _ _ _ _ ho hg hr _ hw, _, ht => by
    simp only [openFields, ho, hg, hr, List.mem_map] at ht ⊢
    have h := hw.backs hD G (fun b hb => ht _ ⟨b, hb, rfl⟩)
    refine ⟨h.1, ?_⟩
    rintro c ⟨b, hb, rfl⟩
    exact h.2 b hb
theorem TypedV.backs {D : Registry} {ok : Content → Prop} {good : Ty → Prop} (hD : D.openOk) (G : Closed D ok good) : ∀ {ine : Bool} {m : Ident} {k : Val} {t u : Ty} {v : Val} {w : OVal},
    TypedV D ok ine m k t u v w → (∀ b ∈ octetsIn v, good u ∧ u.wf = true) →
    (∀ c ∈ t.fields D v, Back D c.type c.octets) ∧ ∀ b ∈ octetsIn v, Back D u b
  | _, _, _, _, _, _, _, .one _ _ _ _ _ u b v w hv he hn _ hw, ht => by
    refine ⟨by simp [Ty.fields], ?_⟩
    simp only [octetsIn, List.mem_singleton, forall_eq] at ht ⊢
    exact typed_back hD G ht.1 ht.2 hv he hn (hw.backs hD G (fun c hc => G.types u v c ht.1 hc (hw.oks c hc)))
  | _, _, _, _, _, _, _, .many _ _ _ _ _ t _ _ _ hl, ht => by
    have h := hl.backs hD G (fun b hb => ht b (List.mem_filterMap.2 ⟨_, hb, rfl⟩))
    simp only [Ty.fields, List.mem_flatMap, octetsIn, List.mem_filterMap]
    refine ⟨?_, ?_⟩
    · rintro c ⟨v, hv, hc⟩
      obtain ⟨b, rfl, _⟩ := h v hv
      cases t <;> simp [Ty.fields] at hc
    · rintro b ⟨v, hv, hb⟩
      obtain ⟨b', rfl, h⟩ := h v hv
      simp only [Option.some.injEq] at hb
      rw [← hb]
      exact h
theorem TypedL.backs {D : Registry} {ok : Content → Prop} {good : Ty → Prop} (hD : D.openOk) (G : Closed D ok good) : ∀ {ine : Bool} {m : Ident} {k : Val} {t u : Ty} {vs : Vals} {ws : OVals},
    TypedL D ok ine m k t u vs ws → (∀ b, .octets b ∈ vs.toList → good u ∧ u.wf = true) →
    ∀ v ∈ vs.toList, ∃ b, v = .octets b ∧ Back D u b
  | _, _, _, _, _, _, _, .nil _ _ _ _ _, _ => by simp [Vals.toList]
  | _, _, _, _, _, _, _, .cons _ _ _ _ u b v _ _ _ hv he hn _ hw hl, ht => by
    simp only [Vals.toList, List.mem_cons, forall_eq_or_imp] at ht ⊢
    have hu := ht b (.inl rfl)
    refine ⟨⟨b, rfl, ?_⟩, hl.backs hD G (fun b hb => ht b (.inr hb))⟩
    exact typed_back hD G hu.1 hu.2 hv he hn (hw.backs hD G (fun c hc => G.types u v c hu.1 hc (hw.oks c hc)))
end

end Asn1
end Verif
