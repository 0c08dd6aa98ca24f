import Verif.Asn1.DerSort
import Verif.Spec.Empty

/-!
# The encoder follows the Distinguished Encoding Rules
-/

namespace Verif
namespace Asn1

open Der

theorem Ty.drop_ne_absent (ine : Bool) (t : Ty) (v : Val) (h : v ≠ .absent) : t.drop ine v ≠ .absent := by
  cases t <;> cases v <;> simp [Ty.drop] at h ⊢

mutual
/-- There is nothing to drop in a value of a rigid type. -/
theorem Ty.rigid_drop : ∀ (t : Ty) (ine : Bool) (v : Val), t.rigid = true → t.valid v = true → t.drop ine v = v
  | .prim _ _, _, v, _, _ => by cases v <;> rfl
  | .bad _, _, v, _, _ => by cases v <;> rfl
  | .of _ _ _, _, _, h, _ => by simp [Ty.rigid] at h
  | .seq _ _ cs, _, v, h, hv => by
    cases v <;> simp [Ty.valid] at hv
    simp only [Ty.rigid, Bool.and_eq_true] at h
    simp only [Ty.drop, Comps.rigid_drop cs _ h.1 h.2 hv.1]
  | .choice _ cs, ine, v, h, hv => by
    cases v <;> simp [Ty.valid] at hv
    simp only [Ty.rigid] at h
    simp only [Ty.drop, Comps.rigid_dropAlt cs ine _ _ h hv]
theorem Comps.rigid_drop : ∀ (cs : Comps) (vs : Vals), cs.rigid = true → cs.solid = true → cs.valid vs = true → cs.drop vs = vs
  | .nil, vs, _, _, _ => by cases vs <;> rfl
  | .cons f t cs, vs, h, hs, hv => by
    cases vs with
    | nil => rfl
    | cons v vs =>
      simp only [Comps.rigid, Comps.solid, Comps.valid, Bool.and_eq_true] at h hs hv
      simp only [Comps.drop, Comps.rigid_drop cs vs h.2 hs.2 hv.2]
      congr 1
      have hv1 := hv.1
      have hs1 := hs.1
      cases hm : f.mode with
      | req =>
        simp only [hm] at hv1 ⊢
        exact Ty.rigid_drop t false v h.1 hv1
      | opt =>
        simp only [hm, Bool.or_eq_true, beq_iff_eq] at hv1 ⊢
        simp only [hm, Mode.isOpt, Bool.not_true, Bool.false_or, Bool.not_eq_true'] at hs1
        rcases hv1 with rfl | hv1
        · simp
        · split
          · rename_i hc
            rcases hc with rfl | hc
            · rfl
            · rw [Ty.canVanish_of t v hv1 hc] at hs1; cases hs1
          · exact Ty.rigid_drop t true v h.1 hv1
      | dflt d =>
        simp only [hm, Bool.or_eq_true, beq_iff_eq] at hv1 ⊢
        split
        · rename_i hc; exact hc.symm
        · rename_i hc
          exact Ty.rigid_drop t false v h.1 (hv1.resolve_left hc)
theorem Comps.rigid_dropAlt : ∀ (cs : Comps) (ine : Bool) (i : Nat) (v : Val), cs.rigid = true → cs.validAlt i v = true →
    cs.dropAlt ine i v = v
  | .nil, _, _, _, _, _ => rfl
  | .cons _ t _, ine, 0, v, h, hv => by
    simp only [Comps.rigid, Bool.and_eq_true] at h
    simpa [Comps.dropAlt] using Ty.rigid_drop t ine v h.1 (by simpa [Comps.validAlt] using hv)
  | .cons _ _ cs, ine, i + 1, v, h, hv => by
    simp only [Comps.rigid, Bool.and_eq_true] at h
    simpa [Comps.dropAlt] using Comps.rigid_dropAlt cs ine i v h.2 (by simpa [Comps.validAlt] using hv)
end

/-- The pairs the encoder makes for the elements of a collection. -/
theorem mapOpt_pairs' (f : Val → Option Bytes) : ∀ (l : List Val) (ps : List (Bytes × Val)),
    mapOpt (fun v => (f v).map (fun b => (b, v))) l = some ps → ps.map Prod.snd = l ∧ ∀ p ∈ ps, f p.2 = some p.1 := by
  intro l ps h
  rw [mapOpt_all2] at h
  revert ps
  induction l with
  | nil => intro ps h; cases ps with
    | nil => simp
    | cons => exact h.elim
  | cons u l ih =>
    intro ps h
    cases ps with
    | nil => exact h.elim
    | cons p q =>
      obtain ⟨h1, h2⟩ := ih q h.2
      have h3 := h.1
      cases hb : f u with
      | none => simp [hb] at h3
      | some b =>
        simp only [hb, Option.map_some, Option.some.injEq] at h3
        subst h3
        refine ⟨by simp [h1], ?_⟩
        intro r hr
        rcases List.mem_cons.1 hr with rfl | hr
        · exact hb
        · exact h2 r hr

/-- Nothing is written exactly for what vanishes. -/
theorem enc_isEmpty (ine : Bool) (t : Ty) (v : Val) (b : Bytes) (hw : t.wf = true) (hv : t.valid v = true)
    (he : enc ine t v = some b) : b.isEmpty = (ine && t.vanish v) := by
  rcases rt t ine v b hw hv he with ⟨rfl, h1, h2⟩ | ⟨h0, x, w, h1, _⟩
  · simp [h1, h2]
  · have : b ≠ [] := by
      rintro rfl
      have := h1.read
      simp [readTLV, readTag] at this
    cases hi : ine with
    | false => simpa using this
    | true => simp [h0 hi, this]

theorem each2_pairs (ine : Bool) (t : Ty) : ∀ ps : List (Bytes × Val),
    (∀ p ∈ ps, p.1.isEmpty = (ine && t.vanish p.2)) → (∀ p ∈ ps, p.1 ≠ [] → encodes t (t.drop ine p.2) p.1) →
    each2 (encodes t) (((ps.map Prod.snd).filter (fun u => !(ine && t.vanish u))).map (t.drop ine))
      ((ps.filter (fun p => !p.1.isEmpty)).map Prod.fst)
  | [], _, _ => trivial
  | p :: ps, h1, h2 => by
    have ih := each2_pairs ine t ps (fun q hq => h1 q (List.mem_cons_of_mem _ hq)) (fun q hq => h2 q (List.mem_cons_of_mem _ hq))
    have e := h1 p List.mem_cons_self
    cases hp : p.1.isEmpty with
    | true =>
      rw [hp] at e
      simp only [List.map_cons, List.filter_cons, ← e, hp, Bool.not_true, Bool.false_eq_true, if_false]
      exact ih
    | false =>
      rw [hp] at e
      simp only [List.map_cons, List.filter_cons, ← e, hp, Bool.not_false, if_true, List.map_cons, each2]
      refine ⟨h2 p List.mem_cons_self ?_, ih⟩
      intro h; simp [h] at hp

theorem flatMap_flatten {α : Type} (f : α → Bytes) (ps : List α) :
    ps.flatMap f = ((ps.filter (fun p => !(f p).isEmpty)).map f).flatten := by
  induction ps with
  | nil => rfl
  | cons p ps ih =>
    simp only [List.flatMap_cons, List.filter_cons]
    cases hp : (f p).isEmpty with
    | true =>
      have : f p = [] := by simpa using hp
      simp [this, ih]
    | false => simp [ih]

/-- What the encoder writes for the components. -/
def DC (cs : Comps) (vs : Vals) (ps : List (TagSet × Bytes)) : Prop :=
  components cs (cs.drop vs) ((ps.filter (fun p => !p.2.isEmpty)).map Prod.snd) ∧
  (∀ p ∈ ps, p.2 ≠ [] → p.1 ≠ [] → leads p.1 p.2) ∧
  (∀ p ∈ ps, ∃ c ∈ cs.toList, p.1 ∈ c.2.keys) ∧
  (cs.setOk = true → ps.Pairwise (fun p q => sameOrder p.1 q.1 = true))

theorem put_wrap {c : Bool} {ts : TagSet} {x b : Bytes} (h : (if c then some [] else wrap true ts x) = some b)
    (hb : b ≠ []) : wrap true ts x = some b := by
  split at h
  · simp only [Option.some.injEq] at h; exact absurd h.symm hb
  · exact h

mutual
/-- What the encoder writes is the DER encoding of the value without empty optional collections. -/
theorem derT : ∀ (t : Ty) (ine : Bool) (v : Val) (b : Bytes), t.wf = true → t.stable = true → t.derOk = true →
    t.valid v = true → care t v → enc ine t v = some b → b ≠ [] → encodes t (t.drop ine v) b
  | .prim k a, ine, v, b, hw, _, hd, hv, hc, he, _ => by
    have hdr : Ty.drop ine (.prim k a) v = v := by cases v <;> rfl
    rw [hdr]
    simp only [enc, Option.bind_eq_some_iff] at he
    obtain ⟨c, hc1, hwr⟩ := he
    simp only [Ty.valid, Bool.and_eq_true] at hv
    simp only [encodes]
    refine ⟨c, (contents_iff _ k v c hv.1.1 hc).2 hc1, ?_⟩
    refine (tagged_iff false a.tags _ c b ?_).2 hwr
    simp only [Ty.wf] at hw
    by_cases hk : k = .any
    · subst hk
      simp only [Ty.derOk, beq_self_eq_true, Bool.not_true, Bool.false_or] at hd
      cases ht : a.tags with
      | nil => rfl
      | cons t ts =>
        rw [ht] at hd
        simpa [fits] using hd
    · have hkb : (k == Prim.any) = false := by simpa using hk
      simp only [hkb, Bool.false_eq_true, if_false] at hw ⊢
      exact fits_prim _ hw
  | .seq s a cs, ine, v, b, hw, hst, hd, hv, hc, he, hb => by
    cases v <;> simp [Ty.valid] at hv
    rename_i vs
    simp only [Ty.wf, Bool.and_eq_true] at hw
    simp only [Ty.stable] at hst
    simp only [Ty.derOk, Bool.and_eq_true, Bool.or_eq_true, Bool.not_eq_true'] at hd
    simp only [care] at hc
    simp only [enc] at he
    rw [if_pos hv.2] at he
    cases hps : encComps cs vs with
    | none => simp [hps] at he
    | some ps =>
      simp only [hps] at he
      have hwr := put_wrap he hb
      obtain ⟨h1, h2, _, h3⟩ := derC cs vs ps hw.1.1.2 hst hd.1 hv.1 hc hps
      simp only [Ty.drop, encodes]
      refine ⟨_, (((if s then sortBy tagsLe Prod.fst ps else ps).filter (fun p => !p.2.isEmpty)).map Prod.snd), h1, ?_, ?_⟩
      · cases s with
        | false => simp
        | true =>
          simp only [if_true]
          constructor
          · exact ((sortBy_perm tagsLe Prod.fst ps).filter _).map _
          · rw [List.pairwise_map]
            exact sorted_tagBefore ps (h3 (by simpa using hd.2)) h2
      · rw [tagged_iff true _ _ _ _ (fits_cons _), ← flatMap_flatten]
        exact hwr
  | .of s a t, ine, v, b, hw, hst, hd, hv, hc, he, hb => by
    cases v <;> simp [Ty.valid] at hv
    rename_i vs
    simp only [Ty.wf, Bool.and_eq_true] at hw
    simp only [Ty.stable, Bool.and_eq_true] at hst
    simp only [Ty.derOk] at hd
    simp only [care] at hc
    rw [Vals.every_iff, List.all_eq_true] at hv
    simp only [enc] at he
    rw [if_pos hv.2] at he
    cases hps : mapOpt (fun v => (enc ine t v).map (fun b => (b, v))) vs.toList with
    | none => simp [hps] at he
    | some ps =>
      simp only [hps] at he
      have hwr := put_wrap he hb
      obtain ⟨h1, h2⟩ := mapOpt_pairs' (enc ine t) _ _ hps
      have hm : ∀ p ∈ ps, p.2 ∈ vs.toList := by
        intro p hp; rw [← h1]; exact List.mem_map_of_mem hp
      simp only [Ty.drop, encodes, Vals.toList_ofList]
      refine ⟨(ps.filter (fun p => !p.1.isEmpty)).map Prod.fst,
        (((if s then sortChunks ps else ps).filter (fun p => !p.1.isEmpty)).map Prod.fst), ?_, ?_, ?_⟩
      · rw [← h1]
        refine each2_pairs ine t ps (fun p hp => enc_isEmpty ine t _ _ hw.2 (hv.1 _ (hm p hp)) (h2 p hp)) ?_
        intro p hp hne
        exact derT t ine p.2 p.1 hw.2 hst.1 hd (hv.1 _ (hm p hp)) (hc _ (hm p hp)) (h2 p hp) hne
      · cases s with
        | false => simp
        | true =>
          simp only [if_true]
          constructor
          · exact ((sortBy_perm _ _ ps).filter _).map _
          · rw [List.pairwise_map]
            exact (sortChunks_pairwise ps).filter _
      · rw [tagged_iff true _ _ _ _ (fits_cons _), ← flatMap_flatten]
        exact hwr
  | .choice a cs, ine, v, b, hw, hst, hd, hv, hc, he, hb => by
    cases v <;> simp [Ty.valid] at hv
    rename_i i v
    simp only [Ty.wf, Bool.and_eq_true] at hw
    simp only [Ty.stable] at hst
    simp only [Ty.derOk] at hd
    simp only [care] at hc
    simp only [enc] at he
    cases hps : encAlt ine cs i v with
    | none => simp [hps] at he
    | some c =>
      simp only [hps] at he
      simp only [Ty.drop, encodes]
      have hcn : c ≠ [] := by
        rintro rfl
        rcases rtAlt cs ine i v [] hw.1.2 hv hps with ⟨_, h1, h2⟩ | ⟨h0, x, w, h1, _⟩
        · simp [h1] at he; exact hb he
        · have := h1.read
          simp [readTLV, readTag] at this
      refine ⟨c, derA cs ine i v c hw.1.2 hst hd hv hc hps hcn, ?_⟩
      rw [tagged_iff true _ _ _ _ (fits_cons _)]
      exact put_wrap he hb
  | .bad _, _, _, _, hw, _, _, _, _, _, _ => by simp [Ty.wf] at hw
theorem derC : ∀ (cs : Comps) (vs : Vals) (ps : List (TagSet × Bytes)), cs.wf = true → cs.stable = true →
    cs.derOk = true → cs.valid vs = true → cares cs vs → encComps cs vs = some ps → DC cs vs ps
  | .nil, vs, ps, _, _, _, hv, _, he => by
    cases vs with
    | cons => simp [Comps.valid] at hv
    | nil =>
      simp only [encComps, Option.some.injEq] at he; subst he
      refine ⟨?_, by simp, by simp, fun _ => List.Pairwise.nil⟩
      simp [components, Comps.drop]
  | .cons f t cs, .nil, ps, _, _, _, hv, _, _ => by simp [Comps.valid] at hv
  | .cons f t cs, .cons v vs, ps, hw, hst, hd, hv, hc, he => by
    simp only [Comps.wf, Bool.and_eq_true] at hw
    simp only [Comps.stable, Bool.and_eq_true] at hst
    simp only [Comps.derOk, Bool.and_eq_true] at hd
    simp only [Comps.valid, Bool.and_eq_true] at hv
    simp only [cares] at hc
    obtain ⟨ps', he', hcase⟩ := encComps_cons he
    obtain ⟨h1, h2, h3, h4⟩ := derC cs vs ps' hw.2 hst.2 hd.2 hv.2 hc.2 he'
    rcases hcase with ⟨hm, hab, rfl⟩ | ⟨hab, hm, b, hb, rfl⟩
    · refine ⟨?_, h2, ?_, ?_⟩
      · simp only [components, Comps.drop]
        cases hf : f.mode with
        | req => exact absurd hf hm
        | opt =>
          simp only [hf] at hab ⊢
          have : v = .absent := by simpa using hab
          subst this
          exact Or.inl ⟨by simp, h1⟩
        | dflt d =>
          simp only [hf] at hab ⊢
          have : v = d := by
            rcases hab with rfl | h
            · have := hv.1
              simp only [hf, Bool.or_eq_true, beq_iff_eq] at this
              rcases this with h | h
              · exact h
              · exact absurd rfl (Ty.valid_ne_absent t _ h)
            · simpa using h.symm
          exact Or.inl ⟨by simp [this], h1⟩
      · intro p hp
        obtain ⟨c, hcm, hk⟩ := h3 p hp
        exact ⟨c, by simp [Comps.toList, hcm], hk⟩
      · intro hs
        simp only [Comps.setOk, Bool.and_eq_true] at hs
        exact h4 hs.2
    · have hvt : t.valid v = true := by
        have := hv.1
        cases hf : f.mode with
        | req => simpa [hf] using this
        | opt => simpa [hf, hab] using this
        | dflt d =>
          simp only [hf, Bool.or_eq_true, beq_iff_eq] at this
          rcases this with h | h
          · subst h; exact absurd hf hm
          · exact h
      have hcv : care t v := by
        have := hc.1
        cases hf : f.mode with
        | req => simpa [hf] using this
        | opt => simpa [hf, hab] using this
        | dflt d =>
          simp only [hf] at this
          rcases this with h | h
          · subst h; exact absurd hf hm
          · exact h
      have hem := enc_isEmpty _ t v b hw.1 hvt hb
      refine ⟨?_, ?_, ?_, ?_⟩
      · simp only [components, Comps.drop]
        cases hf : f.mode with
        | req =>
          simp only [hf, Mode.isOpt, Bool.false_and] at hem hb ⊢
          have hbn : b ≠ [] := by rintro rfl; simp at hem
          simp only [List.filter_cons, hem, Bool.not_false, if_true, List.map_cons]
          exact ⟨b, _, rfl, derT t false v b hw.1 hst.1.1 hd.1 hvt hcv hb hbn, h1⟩
        | opt =>
          simp only [hf, Mode.isOpt, Bool.true_and] at hem hb ⊢
          cases hva : t.vanish v with
          | true =>
            rw [hva] at hem
            simp only [List.filter_cons, hem, Bool.not_true, Bool.false_eq_true, if_false]
            exact Or.inl ⟨by simp, h1⟩
          | false =>
            rw [hva] at hem
            have hbn : b ≠ [] := by rintro rfl; simp at hem
            simp only [List.filter_cons, hem, Bool.not_false, if_true, List.map_cons]
            simp only [hab, Bool.false_eq_true, or_self, if_false]
            exact Or.inr ⟨Ty.drop_ne_absent true t v hab, b, _, rfl, derT t true v b hw.1 hst.1.1 hd.1 hvt hcv hb hbn, h1⟩
        | dflt d =>
          simp only [hf, Mode.isOpt, Bool.false_and] at hem hb hst ⊢
          have hbn : b ≠ [] := by rintro rfl; simp at hem
          have hvd : v ≠ d := by rintro rfl; exact hm hf
          have hr : t.drop false v ≠ d := by
            have hst2 : t.rigid = true ∨ d = .absent := by simpa using hst.1.2
            rcases hst2 with hr | rfl
            · rw [Ty.rigid_drop t false v hr hvt]; exact hvd
            · exact Ty.drop_ne_absent false t v hab
          simp only [List.filter_cons, hem, Bool.not_false, if_true, List.map_cons, hvd, if_false]
          refine Or.inr ⟨hr, b, _, rfl, derT t false v b hw.1 hst.1.1 hd.1 hvt hcv hb hbn, h1⟩
      · intro p hp hne hk
        rcases List.mem_cons.1 hp with rfl | hp
        · exact setKey_leads _ t v b hb hne hk
        · exact h2 p hp hne hk
      · intro p hp
        rcases List.mem_cons.1 hp with rfl | hp
        · exact ⟨(f, t), by simp [Comps.toList], setKey_mem t v hvt⟩
        · obtain ⟨c, hcm, hk⟩ := h3 p hp
          exact ⟨c, by simp [Comps.toList, hcm], hk⟩
      · intro hs
        simp only [Comps.setOk, Bool.and_eq_true, List.all_eq_true] at hs
        refine List.pairwise_cons.2 ⟨?_, h4 hs.2⟩
        intro p hp
        obtain ⟨c, hcm, hk⟩ := h3 p hp
        exact hs.1 _ (setKey_mem t v hvt) c hcm _ hk
theorem derA : ∀ (cs : Comps) (ine : Bool) (i : Nat) (v : Val) (b : Bytes), cs.wf = true → cs.stable = true →
    cs.derOk = true → cs.validAlt i v = true → careAlt cs i v → encAlt ine cs i v = some b → b ≠ [] →
    alternative cs i (cs.dropAlt ine i v) b
  | .nil, _, _, _, _, _, _, _, hv, _, _, _ => by simp [Comps.validAlt] at hv
  | .cons f t cs, ine, 0, v, b, hw, hst, hd, hv, hc, he, hb => by
    simp only [Comps.wf, Bool.and_eq_true] at hw
    simp only [Comps.stable, Bool.and_eq_true] at hst
    simp only [Comps.derOk, Bool.and_eq_true] at hd
    simp only [Comps.validAlt] at hv
    simp only [careAlt] at hc
    simp only [encAlt] at he
    simpa [alternative, Comps.dropAlt] using derT t ine v b hw.1 hst.1.1 hd.1 hv hc he hb
  | .cons f t cs, ine, i + 1, v, b, hw, hst, hd, hv, hc, he, hb => by
    simp only [Comps.wf, Bool.and_eq_true] at hw
    simp only [Comps.stable, Bool.and_eq_true] at hst
    simp only [Comps.derOk, Bool.and_eq_true] at hd
    simp only [Comps.validAlt] at hv
    simp only [careAlt] at hc
    simp only [encAlt] at he
    simpa [alternative, Comps.dropAlt] using derA cs ine i v b hw.2 hst.2 hd.2 hv hc he hb
end

end Asn1
end Verif
