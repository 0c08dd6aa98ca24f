import Verif.Asn1.RtLemmas
import Verif.Asn1.Strict

/-!
# Encoding then decoding

The central induction: every legal value of a well-formed type that the encoder
accepts decodes to the same abstract value.
-/

namespace Verif
namespace Asn1

/-- What encoding a value to `b` means for the decoder. -/
def RT (ine : Bool) (t : Ty) (v : Val) (b : Bytes) : Prop :=
  (b = [] ∧ ine = true ∧ t.vanish v = true) ∨
  ((ine = true → t.vanish v = false) ∧ ∃ x w, IsTLV b x ∧ t.matches x = true ∧ decT t x = some w ∧ t.same ine v w ∧
    (t.stable = true → enc ine t w = some b ∧ t.valid w = true ∧ t.strict x))

/-- The same for the components of a SEQUENCE or SET. -/
def RTC (cs : Comps) (vs : Vals) (ps : List (TagSet × Bytes)) : Prop :=
  ∃ xs ws,
    all2 (fun p x => IsTLV p.2 x) (ps.filter (fun p => !p.2.isEmpty)) xs ∧
    (cs.seqOk = true → decComps cs xs = some ws ∧ ∀ x, xs.head? = some x → cs.windowMatches x = true) ∧
    (∀ x ∈ xs, cs.matches x = true) ∧
    (cs.pairOk = true → ∀ ys, ys.Perm xs → decSet cs ys = some ws) ∧
    cs.same vs ws ∧
    (ps.all (fun p => p.2.isEmpty) = cs.vanish vs) ∧
    (cs.stable = true → encComps cs ws = some (ps.filter (fun p => !p.2.isEmpty)) ∧ cs.valid ws = true) ∧
    (cs.solid = true → presentNames cs ws = presentNames cs vs) ∧
    (cs.stable = true → (cs.seqOk = true → cs.strictSeq xs) ∧ (cs.pairOk = true → ∀ ys, ys.Perm xs → cs.strictSet ys))

/-- The same for the alternatives of a CHOICE. -/
def RTA (ine : Bool) (cs : Comps) (i : Nat) (v : Val) (b : Bytes) : Prop :=
  (b = [] ∧ ine = true ∧ cs.vanishAlt i v = true) ∨
  ((ine = true → cs.vanishAlt i v = false) ∧ ∃ x w, IsTLV b x ∧ cs.matches x = true ∧
    (cs.pairOk = true → ∀ k, decAlt cs k x = some (.alt (k + i) w)) ∧ cs.sameAlt ine i v w ∧
    (cs.stable = true → encAlt ine cs i w = some b ∧ cs.validAlt i w = true ∧ (cs.pairOk = true → cs.strictAlt x)))

theorem rt_prim (ine : Bool) (k : Prim) (a : Attrs) (v : Val) (b : Bytes) (hwf : (Ty.prim k a).wf = true)
    (hv : (Ty.prim k a).valid v = true) (he : enc ine (.prim k a) v = some b) : RT ine (.prim k a) v b := by
  refine Or.inr ⟨fun _ => rfl, ?_⟩
  have he' := he
  simp only [enc] at he
  simp only [Ty.valid, Bool.and_eq_true] at hv
  simp only [Ty.wf] at hwf
  have hval : (Ty.prim k a).valid v = true := by simp only [Ty.valid, Bool.and_eq_true]; exact hv
  cases hc : encPrim k v with
  | none => simp [hc] at he
  | some c =>
    simp only [hc, Option.bind_some] at he
    by_cases hk : k = .any
    · subst hk
      simp only [beq_self_eq_true, if_true, decide_eq_true_eq] at hwf
      have hov : v = .octets c := by
        cases v <;> simp [encPrim] at hc
        rw [hc]
      subst hov
      cases ht : a.tags with
      | nil =>
        rw [ht] at he
        simp only [wrap, Option.some.injEq] at he; subst he
        have h1 := hv.2
        simp only [ht, oneElement] at h1
        split at h1
        · rename_i x hx
          obtain ⟨h2, h3⟩ := isTLV_of_read _ _ hx
          refine ⟨x, .octets c, h2, by simp [Ty.matches, ht], ?_, rfl, fun _ => ⟨he', hval, by simp [Ty.strict]⟩⟩
          simp [decT, decPrimT, ht, h3]
        · simp at h1
      | cons t ts =>
        have : ts = [] := by
          rw [ht] at hwf; simp at hwf; exact hwf
        subst this
        rw [ht] at he
        simp only [wrap] at he
        cases h1 : tlv t false c with
        | none => simp [h1] at he
        | some b1 =>
          simp only [h1, Option.bind_some, Option.some.injEq] at he; subst he
          have h2 := isTLV_tlv t false c b1 h1
          refine ⟨_, .octets c, h2, by simp [Ty.matches, ht, TLV.has], ?_, rfl, fun _ => ⟨he', hval, by simp [Ty.strict]⟩⟩
          simp [decT, decPrimT, ht, TLV.has]
    · have hkb : (k == Prim.any) = false := by simpa using hk
      simp only [hkb, Bool.false_eq_true, if_false] at hwf
      cases ht : a.tags with
      | nil => simp [ht, primTags] at hwf
      | cons t ts =>
        rw [ht] at hwf he
        simp only [primTags, Bool.and_eq_true, Bool.not_eq_true'] at hwf
        obtain ⟨x, y, e1, e2, e3, e4, e5⟩ := wrap_spec false t ts c b (by
          simpa using hwf.2) he
        refine ⟨x, v, e1, ?_, ?_, rfl, fun _ => ⟨he', hval, by simp [Ty.strict]⟩⟩
        · simp only [Ty.matches, ht]
          cases hl : (t :: ts).getLast? with
          | none => simp at hl
          | some l => exact e5 l hl
        · simp only [decT, decPrimT, hkb, ht, e2, e4, e3, hwf.1, Bool.or_false, Bool.false_eq_true, if_false]
          rw [decPrim_encPrim k v c hc hv.1.1]
          simp [hv.1.2]

/-- Decoding the contents of a constructed element. -/
theorem innerItems_wrap (a : Attrs) (content b : Bytes) (xs : List TLV) (hwf : consTags a.tags = true)
    (hw : wrap true a.tags content = some b) (hi : items content = some xs) :
    ∃ x, IsTLV b x ∧ (∀ l, a.tags.getLast? = some l → x.has l = true) ∧ a.tags ≠ [] ∧ innerItems a x = some xs := by
  cases ht : a.tags with
  | nil => simp [ht, consTags] at hwf
  | cons t ts =>
    rw [ht] at hwf hw
    simp only [consTags] at hwf
    obtain ⟨x, y, e1, e2, e3, e4, e5⟩ := wrap_spec true t ts content b (by simpa using hwf) hw
    refine ⟨x, e1, e5, by simp, ?_⟩
    simp only [innerItems, ht, e2, e4, e3, Bool.or_true, if_true, hi]

theorem isEmpty_sorted (isSet : Bool) (ps : List (TagSet × Bytes)) :
    ((if isSet then sortBy tagsLe Prod.fst ps else ps).flatMap Prod.snd).isEmpty = ps.all (fun p => p.2.isEmpty) := by
  rw [flatMap_isEmpty]
  cases isSet with
  | false => rfl
  | true =>
    simp only [if_true]
    exact (sortBy_perm tagsLe Prod.fst ps).all_eq

theorem rt_seq (ine isSet : Bool) (a : Attrs) (cs : Comps) (v : Val) (b : Bytes)
    (ihc : ∀ vs ps, cs.wf = true → cs.valid vs = true → encComps cs vs = some ps → RTC cs vs ps)
    (hwf : (Ty.seq isSet a cs).wf = true)
    (hv : (Ty.seq isSet a cs).valid v = true) (he : enc ine (.seq isSet a cs) v = some b) : RT ine (.seq isSet a cs) v b := by
  cases v <;> simp [Ty.valid] at hv
  rename_i vs
  simp only [Ty.wf, Bool.and_eq_true, Bool.or_eq_true, Bool.not_eq_true'] at hwf
  obtain ⟨⟨⟨hct, hcw⟩, hok⟩, hsp⟩ := hwf
  simp only [enc] at he
  rw [if_pos hv.2] at he
  cases hps : encComps cs vs with
  | none => simp [hps] at he
  | some ps =>
    simp only [hps] at he
    have hem := isEmpty_sorted isSet ps
    obtain ⟨xs, ws, h1, h2, h3, h4, h5, h6, h7, h8, h9⟩ := ihc vs ps hcw hv.1 hps
    rw [hem] at he
    have hnames : a.spec.ok (.mapping (presentNames cs ws).length (presentNames cs ws)) = true := by
      rcases hsp with h | h
      · exact Constraint.ok_of_not_truthy _ _ h
      · rw [h8 h]; exact hv.2
    by_cases hcase : (ine && ps.all (fun p => p.2.isEmpty)) = true
    · rw [if_pos hcase] at he
      simp only [Option.some.injEq] at he
      simp only [Bool.and_eq_true] at hcase
      exact Or.inl ⟨he.symm, hcase.1, by simp only [Ty.vanish]; rw [← h6]; exact hcase.2⟩
    · rw [if_neg hcase] at he
      refine Or.inr ⟨?_, ?_⟩
      · intro hi
        simp only [Ty.vanish]; rw [← h6]
        simpa [hi] using hcase
      · -- the elements in the order they are written
        have hys : ∃ ys, ys.Perm xs ∧ (isSet = false → ys = xs) ∧
            items ((if isSet then sortBy tagsLe Prod.fst ps else ps).flatMap Prod.snd) = some ys := by
          cases isSet with
          | false => exact ⟨xs, List.Perm.refl _, fun _ => rfl, items_flatMap Prod.snd ps xs h1⟩
          | true =>
            obtain ⟨ys, hy1, hy2⟩ := all2_perm
              ((sortBy_perm tagsLe Prod.fst (ps.filter (fun p => !p.2.isEmpty))).symm) h1
            refine ⟨ys, hy1.symm, fun h => by simp at h, ?_⟩
            simp only [if_true]
            apply items_flatMap
            rw [sortBy_filter tagsLe Prod.fst tagsLe_total tagsLe_trans]
            exact hy2
        obtain ⟨ys, hperm, hseq, hit⟩ := hys
        obtain ⟨x, e1, e2, e3, e4⟩ := innerItems_wrap a _ b ys hct he hit
        refine ⟨x, .record ws, e1, ?_, ?_, h5, ?_⟩
        · simp only [Ty.matches]
          cases hl : a.tags.getLast? with
          | none => simp at hl; exact absurd hl e3
          | some l => exact e2 l hl
        · simp only [decT, e4]
          have : (if isSet then (if ys.all cs.matches then decSet cs ys else none) else decComps cs ys) = some ws := by
            cases isSet with
            | false =>
              simp only [Bool.false_eq_true, if_false] at hok ⊢
              rw [hseq rfl]; exact (h2 hok).1
            | true =>
              simp only [if_true, Bool.and_eq_true] at hok ⊢
              have : ys.all cs.matches = true := by
                rw [List.all_eq_true]
                exact fun z hz => h3 z (hperm.mem_iff.1 hz)
              rw [if_pos this]
              exact h4 hok.1 ys hperm
          rw [this]
          simp [hnames]
        · intro hst
          simp only [Ty.stable] at hst
          obtain ⟨g1, g2⟩ := h7 hst
          refine ⟨?_, by simp [Ty.valid, g2, hnames], ?_⟩
          rotate_left
          · obtain ⟨s1, s2⟩ := h9 hst
            simp only [Ty.strict, e4, Option.some.injEq]
            rintro _ rfl
            cases isSet with
            | false =>
              simp only [Bool.false_eq_true, if_false] at hok ⊢
              rw [hseq rfl]; exact s1 hok
            | true =>
              simp only [if_true, Bool.and_eq_true] at hok ⊢
              exact s2 hok.1 ys hperm
          simp only [enc]
          rw [if_pos hnames, g1]
          simp only []
          have hfl : (if isSet then sortBy tagsLe Prod.fst (ps.filter (fun p => !p.2.isEmpty)) else
              ps.filter (fun p => !p.2.isEmpty)).flatMap Prod.snd =
              (if isSet then sortBy tagsLe Prod.fst ps else ps).flatMap Prod.snd := by
            cases isSet with
            | false => exact flatMap_filter Prod.snd ps
            | true =>
              simp only [if_true]
              rw [← sortBy_filter tagsLe Prod.fst tagsLe_total tagsLe_trans]
              exact flatMap_filter Prod.snd _
          rw [hfl, hem, if_neg hcase]
          exact he

theorem rt_choice (ine : Bool) (a : Attrs) (cs : Comps) (v : Val) (b : Bytes)
    (iha : ∀ i v b, cs.wf = true → cs.validAlt i v = true → encAlt ine cs i v = some b → RTA ine cs i v b)
    (hwf : (Ty.choice a cs).wf = true)
    (hv : (Ty.choice a cs).valid v = true) (he : enc ine (.choice a cs) v = some b) : RT ine (.choice a cs) v b := by
  cases v <;> simp [Ty.valid] at hv
  rename_i i v
  simp only [Ty.wf, Bool.and_eq_true, Bool.or_eq_true] at hwf
  obtain ⟨⟨hct, hcw⟩, hok⟩ := hwf
  simp only [enc] at he
  cases hcn : encAlt ine cs i v with
  | none => simp [hcn] at he
  | some content =>
    simp only [hcn] at he
    rcases iha i v content hcw hv hcn with ⟨h1, h2, h3⟩ | ⟨h0, x, w, h1, h2, h3, h4, h5⟩
    · subst h1; subst h2
      simp at he
      exact Or.inl ⟨he, rfl, by simpa [Ty.vanish] using h3⟩
    · have hne : content.isEmpty = false := by
        have := h1.1
        cases content <;> simp_all
      rw [hne, Bool.and_false] at he
      simp only [Bool.false_eq_true, if_false] at he
      refine Or.inr ⟨by simpa [Ty.vanish] using h0, ?_⟩
      have hdec := h3 hok 0
      rw [Nat.zero_add] at hdec
      have hstab : (Ty.choice a cs).stable = true → enc ine (.choice a cs) (.alt i w) = some b ∧
          (Ty.choice a cs).valid (.alt i w) = true ∧ cs.strictAlt x := by
        intro hst
        simp only [Ty.stable] at hst
        obtain ⟨g1, g2⟩ := h5 hst
        refine ⟨?_, by simpa [Ty.valid] using g2.1, g2.2 hok⟩
        simp only [enc, g1, hne, Bool.and_false, Bool.false_eq_true, if_false]
        exact he
      cases ht : a.tags with
      | nil =>
        rw [ht] at he
        simp only [wrap, Option.some.injEq] at he
        subst he
        refine ⟨x, .alt i w, h1, by simp [Ty.matches, ht, h2], ?_, ⟨rfl, h4⟩, fun hst => ?_⟩
        rotate_left
        · obtain ⟨k1, k2, k3⟩ := hstab hst
          exact ⟨k1, k2, by simpa only [Ty.strict, ht] using k3⟩
        simp only [decT, ht]
        exact hdec
      | cons t ts =>
        rw [ht] at he hct
        simp only [List.isEmpty_cons, Bool.false_eq_true, consTags, false_or] at hct
        obtain ⟨z, y, e1, e2, e3, e4, e5⟩ := wrap_spec true t ts content b (by simpa using hct) he
        refine ⟨z, .alt i w, e1, ?_, ?_, ⟨rfl, h4⟩, fun hst => ?_⟩
        rotate_right
        · obtain ⟨k1, k2, k3⟩ := hstab hst
          refine ⟨k1, k2, ?_⟩
          simp only [Ty.strict, ht, e2, Option.some.injEq]
          rintro _ z' r rfl hz
          rw [e3, h1.read] at hz
          simp only [Option.some.injEq, Prod.mk.injEq] at hz
          rw [← hz.1]
          exact k3
        · simp only [Ty.matches, ht]
          cases hl : (t :: ts).getLast? with
          | none => simp at hl
          | some l => exact e5 l hl
        · simp only [decT, ht, e2, e3, h1.read]
          exact hdec

/-- Decoding the chunks of a collection. -/
theorem rt_of (ine isSet : Bool) (a : Attrs) (t : Ty) (v : Val) (b : Bytes)
    (iht : ∀ v b, t.wf = true → t.valid v = true → enc ine t v = some b → RT ine t v b)
    (hwf : (Ty.of isSet a t).wf = true)
    (hv : (Ty.of isSet a t).valid v = true) (he : enc ine (.of isSet a t) v = some b) : RT ine (.of isSet a t) v b := by
  cases v <;> simp [Ty.valid] at hv
  rename_i vs
  simp only [Ty.wf, Bool.and_eq_true] at hwf
  obtain ⟨hct, htw⟩ := hwf
  rw [Vals.every_iff, List.all_eq_true] at hv
  simp only [enc] at he
  rw [if_pos hv.2] at he
  cases hps : mapOpt (fun v => (enc ine t v).map (fun b => (b, v))) vs.toList with
  | none => simp [hps] at he
  | some ps0 =>
    simp only [hps] at he
    rw [mapOpt_all2] at hps
    -- facts about the pairs before sorting
    have hmap : ps0.map Prod.snd = vs.toList := by
      have : ∀ (l : List Val) (q : List (Bytes × Val)),
          all2 (fun v p => (enc ine t v).map (fun b => (b, v)) = some p) l q → q.map Prod.snd = l := by
        intro l
        induction l with
        | nil => intro q h; cases q with
          | nil => rfl
          | cons => exact h.elim
        | cons u l ih =>
          intro q h
          cases q with
          | nil => exact h.elim
          | cons p q =>
            rw [List.map_cons, ih q h.2]
            have h1 := h.1
            cases hb : enc ine t u with
            | none => simp [hb] at h1
            | some b => simp [hb] at h1; rw [← h1]
      exact this _ _ hps
    have hmem0 : ∀ p ∈ ps0, enc ine t p.2 = some p.1 ∧ t.valid p.2 = true := by
      have : ∀ (l : List Val) (q : List (Bytes × Val)),
          all2 (fun v p => (enc ine t v).map (fun b => (b, v)) = some p) l q → ∀ p ∈ q, enc ine t p.2 = some p.1 := by
        intro l
        induction l with
        | nil => intro q h; cases q with
          | nil => simp
          | cons => exact h.elim
        | cons u l ih =>
          intro q h
          cases q with
          | nil => exact h.elim
          | cons p q =>
            intro r hr
            rcases List.mem_cons.1 hr with rfl | hr
            · have h1 := h.1
              cases hb : enc ine t u with
              | none => simp [hb] at h1
              | some b => simp [hb] at h1; rw [← h1]; exact hb
            · exact ih q h.2 r hr
      intro p hp
      refine ⟨this _ _ hps p hp, hv.1 p.2 ?_⟩
      rw [← hmap]
      exact List.mem_map_of_mem hp
    -- the pairs in the order they are written
    obtain ⟨ps, hdef⟩ : ∃ ps, ps = (if isSet then sortChunks ps0 else ps0) := ⟨_, rfl⟩
    rw [← hdef] at he
    have hperm : ps.Perm ps0 := by
      rw [hdef]
      cases isSet with
      | false => exact List.Perm.refl _
      | true => exact sortBy_perm _ _ _
    have hmem : ∀ p ∈ ps, RT ine t p.2 p.1 := by
      intro p hp
      obtain ⟨h1, h2⟩ := hmem0 p (hperm.mem_iff.1 hp)
      exact iht _ _ htw h2 h1
    have hvan : (ine && ps.all (fun p => p.1.isEmpty)) = (ine && vs.every t.vanish) := by
      cases ine with
      | false => rfl
      | true =>
        simp only [Bool.true_and]
        rw [Vals.every_iff, ← hmap, List.all_map, ← hperm.all_eq]
        rw [Bool.eq_iff_iff, List.all_eq_true, List.all_eq_true]
        have key : ∀ p ∈ ps, p.1.isEmpty = t.vanish p.2 := by
          intro p hp
          rcases hmem p hp with ⟨h1, _, h3⟩ | ⟨h0, x, w, h1, _⟩
          · rw [h1, h3]; rfl
          · rw [h0 rfl]
            have := h1.1
            cases hp1 : p.1 <;> simp_all
        constructor
        · intro h p hp; rw [Function.comp, ← key p hp]; exact h p hp
        · intro h p hp; rw [key p hp]; exact h p hp
    rw [flatMap_isEmpty] at he
    by_cases hcase : (ine && ps.all (fun p => p.1.isEmpty)) = true
    · rw [if_pos hcase] at he
      simp only [Option.some.injEq] at he
      rw [hvan] at hcase
      simp only [Bool.and_eq_true] at hcase
      exact Or.inl ⟨he.symm, hcase.1, hcase.2⟩
    · rw [if_neg hcase] at he
      refine Or.inr ⟨?_, ?_⟩
      · intro hi
        rw [hvan, hi] at hcase
        simpa [Ty.vanish] using hcase
      · -- the elements that are written
        obtain ⟨qs, hqs⟩ : ∃ qs, qs = ps.filter (fun p => !p.1.isEmpty) := ⟨_, rfl⟩
        have hq : ∀ p ∈ qs, ∃ xw : TLV × Val, IsTLV p.1 xw.1 ∧ decT t xw.1 = some xw.2 ∧ t.same ine p.2 xw.2 ∧
            (t.stable = true → enc ine t xw.2 = some p.1 ∧ t.valid xw.2 = true ∧ t.strict xw.1) := by
          intro p hp
          rw [hqs, List.mem_filter] at hp
          rcases hmem p hp.1 with ⟨h1, _⟩ | ⟨_, x, w, h1, _, h3, h4, h5⟩
          · simp [h1] at hp
          · exact ⟨(x, w), h1, h3, h4, h5⟩
        obtain ⟨xws, hxws⟩ := all2_choose qs hq
        have hit : items (ps.flatMap Prod.fst) = some (xws.map Prod.fst) := by
          apply items_flatMap
          rw [← hqs, all2_map_right]
          exact all2_imp (fun _ _ h => h.1) hxws
        obtain ⟨x, e1, e2, e3, e4⟩ := innerItems_wrap a _ b _ hct he hit
        have hdec : mapOpt (decT t) (xws.map Prod.fst) = some (xws.map Prod.snd) := by
          rw [mapOpt_all2, all2_map_left, all2_map_right]
          have : ∀ (q : List (Bytes × Val)) (l : List (TLV × Val)),
              all2 (fun (p : Bytes × Val) (xw : TLV × Val) => IsTLV p.1 xw.1 ∧ decT t xw.1 = some xw.2 ∧ t.same ine p.2 xw.2 ∧
                (t.stable = true → enc ine t xw.2 = some p.1 ∧ t.valid xw.2 = true ∧ t.strict xw.1)) q l →
              all2 (fun (a b : TLV × Val) => decT t a.1 = some b.2) l l := by
            intro q
            induction q with
            | nil => intro l h; cases l with
              | nil => trivial
              | cons => exact h.elim
            | cons p q ih => intro l h; cases l with
              | nil => exact h.elim
              | cons y l => exact ⟨h.1.2.1, ih l h.2⟩
          exact this _ _ hxws
        -- which elements survive
        have hfil : (ps.map Prod.snd).filter (fun u => !(ine && t.vanish u)) = qs.map Prod.snd := by
          rw [hqs, List.filter_map]
          congr 1
          apply List.filter_congr
          intro p hp
          simp only [Function.comp]
          rcases hmem p hp with ⟨h1, h2, h3⟩ | ⟨h0, x, w, h1, _⟩
          · rw [h1, h2, h3]; rfl
          · have : p.1.isEmpty = false := by
              have := h1.1
              cases hp1 : p.1 <;> simp_all
            rw [this]
            cases hi : ine with
            | false => rfl
            | true => rw [h0 hi]; rfl
        refine ⟨x, .list (Vals.ofList (xws.map Prod.snd)), e1, ?_, ?_, ?_, ?_⟩
        · simp only [Ty.matches]
          cases hl : a.tags.getLast? with
          | none => simp at hl; exact absurd hl e3
          | some l => exact e2 l hl
        · simp only [decT, e4, hdec]
        · simp only [Ty.same, Vals.toList_ofList]
          refine ⟨ps.map Prod.snd, ?_, ?_⟩
          · cases hs : isSet with
            | false =>
              simp only [hs, Bool.false_eq_true, if_false] at hdef ⊢
              rw [hdef, hmap]
            | true =>
              simp only [if_true]
              rw [← hmap]
              exact hperm.map _
          · rw [hfil, all2_map_left, all2_map_right]
            exact all2_imp (fun _ _ h => h.2.2.1) hxws
        · intro hst
          simp only [Ty.stable, Bool.and_eq_true, Bool.or_eq_true, Bool.not_eq_true'] at hst
          have hlen : xws.length = qs.length := (all2_length hxws).symm
          have hpslen : ps.length = vs.length := by
            rw [hperm.length_eq, ← List.length_map (f := Prod.snd), hmap, Vals.length_toList]
          have hqle : qs.length ≤ vs.length := by
            rw [← hpslen, hqs]; exact List.length_filter_le _ _
          -- nothing was dropped, or something remains
          have hcount : qs.length = vs.length ∨ (1 ≤ qs.length ∧ ine = true) := by
            cases hi : ine with
            | false =>
              left
              have := congrArg List.length hfil
              rw [List.filter_eq_self.2 (by intro u _; simp [hi])] at this
              simp only [List.length_map] at this
              omega
            | true =>
              right
              refine ⟨?_, rfl⟩
              rw [hi, Bool.true_and] at hcase
              have : ∃ p ∈ ps, ¬ p.1.isEmpty = true := by
                simpa using hcase
              obtain ⟨p, hp, hpe⟩ := this
              have : p ∈ qs := by
                rw [hqs, List.mem_filter]; exact ⟨hp, by simpa using hpe⟩
              exact List.length_pos_of_mem this
          have hspec : a.spec.ok (.mapping qs.length []) = true := by
            rcases hcount with h | ⟨h, hi⟩
            · rw [h]; exact hv.2
            · rcases hst.2 with h2 | h2
              · exact Constraint.shrink vs.length qs.length h hqle a.spec h2 hv.2
              · have : qs = ps := by
                  rw [hqs, List.filter_eq_self]
                  intro p hp
                  rcases hmem p hp with ⟨h1, _, h3⟩ | ⟨_, x, w, h1, _⟩
                  · have := Ty.canVanish_of t p.2 (hmem0 p (hperm.mem_iff.1 hp)).2 h3
                    rw [this] at h2; simp at h2
                  · have := h1.1
                    cases hp1 : p.1 <;> simp_all
                rw [this, hpslen]; exact hv.2
          have hlen2 : (Vals.ofList (xws.map Prod.snd)).length = qs.length := by
            rw [← Vals.length_toList, Vals.toList_ofList, List.length_map, hlen]
          refine ⟨?_, ?_, ?_⟩
          · simp only [enc, hlen2]
            rw [if_pos hspec, Vals.toList_ofList]
            -- the re-encoded chunks
            have hre : ∃ rs : List (Bytes × Val), mapOpt (fun v => (enc ine t v).map (fun b => (b, v))) (xws.map Prod.snd) = some rs ∧
                rs.map Prod.fst = qs.map Prod.fst := by
              have : ∀ (q : List (Bytes × Val)) (l : List (TLV × Val)),
                  all2 (fun (p : Bytes × Val) (xw : TLV × Val) => IsTLV p.1 xw.1 ∧ decT t xw.1 = some xw.2 ∧ t.same ine p.2 xw.2 ∧
                    (t.stable = true → enc ine t xw.2 = some p.1 ∧ t.valid xw.2 = true ∧ t.strict xw.1)) q l →
                  ∃ rs : List (Bytes × Val), mapOpt (fun v => (enc ine t v).map (fun b => (b, v))) (l.map Prod.snd) = some rs ∧
                    rs.map Prod.fst = q.map Prod.fst := by
                intro q
                induction q with
                | nil => intro l h; cases l with
                  | nil => exact ⟨[], rfl, rfl⟩
                  | cons => exact h.elim
                | cons p q ih => intro l h; cases l with
                  | nil => exact h.elim
                  | cons y l =>
                    obtain ⟨rs, g1, g2⟩ := ih l h.2
                    refine ⟨(p.1, y.2) :: rs, ?_, by simp [g2]⟩
                    simp only [List.map_cons, mapOpt, (h.1.2.2.2 hst.1).1, g1, Option.map_some]
              exact this _ _ hxws
            obtain ⟨rs, g1, g2⟩ := hre
            rw [g1]
            simp only []
            have hsorted : (if isSet then sortChunks rs else rs) = rs := by
              cases hs : isSet with
              | false => rfl
              | true =>
                simp only [if_true]
                apply sortBy_id
                simp only [hs, if_true] at hdef
                have h1 : SortedBy bytesLe (fun p : Bytes × Val => ljust (maxLen (ps0.map Prod.fst)) p.1) ps := by
                  rw [hdef]
                  exact sortBy_sorted _ _ bytesLe_total bytesLe_trans ps0
                have hml : maxLen (rs.map Prod.fst) = maxLen (ps0.map Prod.fst) := by
                  rw [g2, hqs]
                  rw [← maxLen_perm (hperm.map Prod.fst), ← maxLen_filter (ps.map Prod.fst), List.filter_map]
                  rfl
                have h2 : SortedBy bytesLe (fun p : Bytes × Val => ljust (maxLen (ps0.map Prod.fst)) p.1) qs := by
                  rw [hqs]
                  exact List.Pairwise.sublist List.filter_sublist h1
                rw [hml]
                unfold SortedBy at h2 ⊢
                have h3 : (qs.map Prod.fst).Pairwise (fun x y => bytesLe (ljust (maxLen (ps0.map Prod.fst)) x) (ljust (maxLen (ps0.map Prod.fst)) y) = true) := by
                  rw [List.pairwise_map]; exact h2
                rw [← g2, List.pairwise_map] at h3
                exact h3
            rw [hsorted]
            have hfl : rs.flatMap Prod.fst = ps.flatMap Prod.fst := by
              rw [← flatMap_filter Prod.fst ps, ← hqs]
              rw [List.flatMap_def, List.flatMap_def, g2]
            rw [hfl, flatMap_isEmpty, if_neg hcase]
            exact he
          · simp only [Ty.valid, hlen2, hspec, Bool.and_true]
            rw [Vals.every_iff, Vals.toList_ofList, List.all_eq_true]
            intro w hw
            have : ∀ (q : List (Bytes × Val)) (l : List (TLV × Val)),
                all2 (fun (p : Bytes × Val) (xw : TLV × Val) => IsTLV p.1 xw.1 ∧ decT t xw.1 = some xw.2 ∧ t.same ine p.2 xw.2 ∧
                  (t.stable = true → enc ine t xw.2 = some p.1 ∧ t.valid xw.2 = true ∧ t.strict xw.1)) q l →
                ∀ w ∈ l.map Prod.snd, t.valid w = true := by
              intro q
              induction q with
              | nil => intro l h; cases l with
                | nil => simp
                | cons => exact h.elim
              | cons p q ih => intro l h; cases l with
                | nil => exact h.elim
                | cons y l =>
                  intro w hw
                  rw [List.map_cons, List.mem_cons] at hw
                  rcases hw with rfl | hw
                  · exact (h.1.2.2.2 hst.1).2.1
                  · exact ih l h.2 w hw
            exact this _ _ hxws w hw
          · simp only [Ty.strict, e4, Option.some.injEq]
            rintro _ rfl y hy
            rw [List.mem_map] at hy
            obtain ⟨xw, hm, rfl⟩ := hy
            obtain ⟨p, _, hp⟩ := all2_mem_right hxws xw hm
            exact (hp.2.2.2 hst.1).2.2

theorem Comps.strictSet_filter (q : TLV → Bool) : ∀ (cs : Comps) (xs : List TLV),
    (∀ x, cs.matches x = true → q x = true) → cs.strictSet (xs.filter q) = cs.strictSet xs
  | .nil, _, _ => by simp [Comps.strictSet]
  | .cons f t cs, xs, h => by
    have h1 : ∀ x, t.matches x = true → q x = true := fun x hx => h x (by simp [Comps.matches, hx])
    have h2 : ∀ x, cs.matches x = true → q x = true := fun x hx => h x (by simp [Comps.matches, hx])
    simp only [Comps.strictSet, Comps.strictSet_filter q cs xs h2, List.mem_filter, eq_iff_iff]
    refine and_congr_left' ⟨fun g x hx hm => g x ⟨hx, h1 x hm⟩ hm, fun g x hx hm => g x hx.1 hm⟩

theorem rtc_cons (f : Field) (t : Ty) (cs : Comps) (vs : Vals) (ps : List (TagSet × Bytes))
    (iht : ∀ ine v b, t.wf = true → t.valid v = true → enc ine t v = some b → RT ine t v b)
    (ihc : ∀ vs ps, cs.wf = true → cs.valid vs = true → encComps cs vs = some ps → RTC cs vs ps)
    (hwf : (Comps.cons f t cs).wf = true)
    (hv : (Comps.cons f t cs).valid vs = true) (he : encComps (.cons f t cs) vs = some ps) : RTC (.cons f t cs) vs ps := by
  cases vs with
  | nil => simp [Comps.valid] at hv
  | cons v vs =>
  simp only [Comps.wf, Bool.and_eq_true] at hwf
  simp only [Comps.valid, Bool.and_eq_true] at hv
  obtain ⟨ps', hps', hcase⟩ := encComps_cons he
  obtain ⟨xs, ws, h1, h2, h3, h4, h5, h6, h7, h8, h9⟩ := ihc vs ps' hwf.2 hv.2 hps'
  -- the component leaves no octets and is filled in by `w`
  have skip : ∀ w, f.mode ≠ .req → f.mode.missing = some w →
      (match f.mode with
       | .req => t.same false v w
       | .opt => (v = .absent ∧ w = .absent) ∨ (t.vanish v = true ∧ w = .absent) ∨ (t.vanish v = false ∧ t.same true v w)
       | .dflt d => (v = d ∧ w = d) ∨ (v ≠ d ∧ t.same false v w)) →
      ps.filter (fun p => !p.2.isEmpty) = ps'.filter (fun p => !p.2.isEmpty) →
      (ps.all (fun p => p.2.isEmpty) = ps'.all (fun p => p.2.isEmpty)) →
      (match f.mode with
         | .req => false
         | .opt => v == .absent || t.vanish v
         | .dflt d => v == d || v == .absent) = true →
      (t.canVanish = false ∨ f.mode.isOpt = false → (w = .absent ↔ v = .absent)) →
      RTC (.cons f t cs) (.cons v vs) ps := by
    intro w hm hmis hsame hfil hall hvan hnm
    refine ⟨xs, .cons w ws, by rw [hfil]; exact h1, ?_, ?_, ?_, ⟨hsame, h5⟩, ?_, ?_, ?_, ?_⟩
    · intro hs
      have hreq : f.mode.isReq = false := by cases hf : f.mode <;> simp_all [Mode.isReq]
      simp only [Comps.seqOk, hreq, Bool.false_or, Bool.and_eq_true] at hs
      obtain ⟨g1, g2⟩ := h2 hs.2
      cases xs with
      | nil => exact ⟨by simp [decComps, hmis, g1], by simp⟩
      | cons x xs =>
        have gw := g2 x rfl
        have gm := Ty.disjointWindow_matches t x cs hs.1 gw
        refine ⟨?_, ?_⟩
        · simp [decComps, hreq, gm, gw, hmis, g1]
        · intro y hy
          simp only [List.head?_cons, Option.some.injEq] at hy; subst hy
          simp [Comps.windowMatches, hreq, gw]
    · intro x hx; simp [Comps.matches, h3 x hx]
    · intro hp ys hperm
      simp only [Comps.pairOk, Bool.and_eq_true] at hp
      have hnil : ys.filter t.matches = [] := by
        rw [List.filter_eq_nil_iff]
        intro x hx
        rw [Ty.disjointAll_matches' t x cs hp.1 (h3 x (hperm.mem_iff.1 hx))]
        simp
      simp [decSet, hnil, mapOpt, h4 hp.2 ys hperm, hmis]
    · rw [hall, h6]
      simp only [Comps.vanish]
      cases hf : f.mode <;> rw [hf] at hvan <;> simp only [hvan, Bool.true_and] <;> simp at hvan
    · intro hst
      simp only [Comps.stable, Bool.and_eq_true] at hst
      obtain ⟨g1, g2⟩ := h7 hst.2
      refine ⟨?_, ?_⟩
      · rw [hfil]
        apply encComps_skip g1 hm
        cases hf : f.mode with
        | req => exact absurd hf hm
        | opt => left; simpa [hf, Mode.missing] using hmis.symm
        | dflt d => right; simpa [hf, Mode.missing] using hmis
      · simp only [Comps.valid, g2, Bool.and_true]
        cases hf : f.mode with
        | req => exact absurd hf hm
        | opt => simp [hf, Mode.missing] at hmis; simp [← hmis]
        | dflt d => simp [hf, Mode.missing] at hmis; simp [← hmis]
    · intro hs
      simp only [Comps.solid, Bool.and_eq_true, Bool.or_eq_true, Bool.not_eq_true'] at hs
      have := hnm (hs.1.symm)
      by_cases hv : v = .absent
      · simp [presentNames, hv, this.2 hv, h8 hs.2]
      · have hw : w ≠ .absent := fun h => hv (this.1 h)
        simp [presentNames, hv, hw, h8 hs.2]
    · intro hst
      simp only [Comps.stable, Bool.and_eq_true] at hst
      obtain ⟨s1, s2⟩ := h9 hst.2
      refine ⟨fun hs => ?_, fun hp ys hperm => ?_⟩
      · have hreq : f.mode.isReq = false := by cases hf : f.mode <;> simp_all [Mode.isReq]
        simp only [Comps.seqOk, hreq, Bool.false_or, Bool.and_eq_true] at hs
        obtain ⟨g1, g2⟩ := h2 hs.2
        cases xs with
        | nil => simp [Comps.strictSeq]
        | cons x xs =>
          have gw := g2 x rfl
          have gm := Ty.disjointWindow_matches t x cs hs.1 gw
          simpa [Comps.strictSeq, hreq, gm, gw] using s1 hs.2
      · simp only [Comps.pairOk, Bool.and_eq_true] at hp
        refine ⟨fun x hx hm => ?_, s2 hp.2 ys hperm⟩
        rw [Ty.disjointAll_matches' t x cs hp.1 (h3 x (hperm.mem_iff.1 hx))] at hm
        simp at hm
  rcases hcase with ⟨hm, hva, hpe⟩ | ⟨hna, hnd, b, hb, hpe⟩
  · -- not encoded at all
    subst hpe
    cases hf : f.mode with
    | req => exact absurd hf hm
    | opt =>
      have hva : v = .absent := by
        rcases hva with h | h
        · exact h
        · rw [hf] at h; simp at h
      apply skip .absent <;> simp [hf, Mode.missing, hva]
    | dflt d =>
      have hvd : v = d := by
        rcases hva with h | h
        · have := hv.1
          simp only [hf, Bool.or_eq_true, beq_iff_eq] at this
          rcases this with h' | h'
          · exact h'
          · exact absurd h (Ty.valid_ne_absent t v h')
        · rw [hf] at h; simp at h; exact h.symm
      apply skip d <;> simp [hf, Mode.missing, hvd]
  · have hval : t.valid v = true := by
      have := hv.1
      cases hf : f.mode with
      | req => simpa [hf] using this
      | opt => simpa [hf, hna] using this
      | dflt d =>
        have hd : v ≠ d := fun h => hnd (by rw [hf, h])
        simpa [hf, hd] using this
    rcases iht _ v b hwf.1 hval hb with ⟨g1, g2, g3⟩ | ⟨g0, x, w, g1, g2, g3, g4, g5⟩
    · -- encoded to nothing
      have hf : f.mode = .opt := by cases hf : f.mode <;> simp_all [Mode.isOpt]
      subst hpe; subst g1
      have hcv := Ty.canVanish_of t v hval g3
      apply skip .absent <;> simp [hf, Mode.missing, Mode.isOpt, g3, hcv]
    · -- encoded to an element
      have hbe : b.isEmpty = false := by
        have := g1.1
        cases b <;> simp_all
      have hw : w ≠ .absent := Ty.same_ne_absent _ t v w g4 hna
      have hfil : ps.filter (fun p => !p.2.isEmpty) = (setKey t v, b) :: ps'.filter (fun p => !p.2.isEmpty) := by
        rw [hpe]; simp [hbe]
      have hnotd : t.stable = true ∧ (match f.mode with | .dflt d => t.rigid || d == .absent | _ => true) = true →
          f.mode ≠ .dflt w := by
        intro hst hf
        have hr : t.rigid = true ∨ w = .absent := by simpa [hf] using hst.2
        have := Ty.rigid_same t _ v w (hr.resolve_right hw) hval g4
        rw [this] at hnd
        exact hnd hf
      refine ⟨x :: xs, .cons w ws, ?_, ?_, ?_, ?_, ?_, ?_, ?_, ?_, ?_⟩
      · rw [hfil]; exact ⟨g1, h1⟩
      · intro hs
        simp only [Comps.seqOk, Bool.and_eq_true] at hs
        obtain ⟨k1, _⟩ := h2 hs.2
        refine ⟨by simp [decComps, g2, g3, k1], ?_⟩
        intro y hy
        simp only [List.head?_cons, Option.some.injEq] at hy; subst hy
        simp [Comps.windowMatches, g2]
      · intro y hy
        rcases List.mem_cons.1 hy with rfl | hy
        · simp [Comps.matches, g2]
        · simp [Comps.matches, h3 y hy]
      · intro hp ys hperm
        simp only [Comps.pairOk, Bool.and_eq_true] at hp
        have hone : ys.filter t.matches = [x] := by
          have := hperm.filter t.matches
          have h0 : xs.filter t.matches = [] := by
            rw [List.filter_eq_nil_iff]
            intro y hy
            rw [Ty.disjointAll_matches' t y cs hp.1 (h3 y hy)]; simp
          rw [List.filter_cons_of_pos g2, h0] at this
          exact List.perm_singleton.1 this
        have hrest : decSet cs ys = some ws := by
          rw [← decSet_filter cs.matches cs ys (fun _ h => h)]
          apply h4 hp.2
          have := hperm.filter cs.matches
          have hx : cs.matches x = false := Ty.disjointAll_matches t x cs hp.1 g2
          rw [List.filter_cons_of_neg (by simp [hx]), List.filter_eq_self.2 h3] at this
          exact this
        simp [decSet, hone, mapOpt, g3, hrest]
      · refine ⟨?_, h5⟩
        cases hf : f.mode with
        | req => simpa [hf, Mode.isOpt] using g4
        | opt =>
          simp only [hf, Mode.isOpt] at g4 g0
          exact Or.inr (Or.inr ⟨g0 trivial, g4⟩)
        | dflt d =>
          simp only [hf, Mode.isOpt] at g4
          exact Or.inr ⟨fun h => hnd (by rw [hf, h]), g4⟩
      · rw [hpe]
        simp only [List.all_cons, hbe, Bool.false_and]
        symm
        simp only [Comps.vanish]
        cases hf : f.mode with
        | req => rfl
        | opt =>
          simp only [hf, Mode.isOpt] at g0
          simp [hna, g0 trivial]
        | dflt d =>
          have hd : v ≠ d := fun h => hnd (by rw [hf, h])
          simp [hna, hd]
      · intro hst
        simp only [Comps.stable, Bool.and_eq_true] at hst
        obtain ⟨k1, k2⟩ := h7 hst.2
        obtain ⟨k3, k4, _⟩ := g5 hst.1.1
        refine ⟨?_, ?_⟩
        · rw [hfil, ← setKey_same _ t v w g4]
          apply encComps_put k1 hw ?_ k3
          intro hf
          have hr : t.rigid = true ∨ w = .absent := by simpa [hf] using hst.1.2
          have := Ty.rigid_same t _ v w (hr.resolve_right hw) hval g4
          rw [this] at hnd
          exact hnd hf
        · simp only [Comps.valid, k2, Bool.and_true]
          cases f.mode <;> simp [k4]
      · intro hs
        simp only [Comps.solid, Bool.and_eq_true] at hs
        simp [presentNames, hna, hw, h8 hs.2]
      · intro hst
        simp only [Comps.stable, Bool.and_eq_true] at hst
        obtain ⟨s1, s2⟩ := h9 hst.2
        have hx := (g5 hst.1.1).2.2
        have hd : ∀ v, decT t x = some v → f.mode ≠ .dflt v := by
          intro v' hv'
          rw [g3, Option.some.injEq] at hv'
          rw [← hv']
          exact hnotd hst.1
        refine ⟨fun hs => ?_, fun hp ys hperm => ?_⟩
        · simp only [Comps.seqOk, Bool.and_eq_true] at hs
          simp only [Comps.strictSeq, g2, Bool.or_true, Bool.true_or, if_true]
          exact ⟨hx, hd, s1 hs.2⟩
        · simp only [Comps.pairOk, Bool.and_eq_true] at hp
          refine ⟨fun y hy hm => ?_, ?_⟩
          · rcases List.mem_cons.1 (hperm.mem_iff.1 hy) with rfl | hy
            · exact ⟨hx, hd⟩
            · rw [Ty.disjointAll_matches' t y cs hp.1 (h3 y hy)] at hm
              simp at hm
          · rw [← Comps.strictSet_filter cs.matches cs ys (fun _ h => h)]
            apply s2 hp.2
            have := hperm.filter cs.matches
            have hx : cs.matches x = false := Ty.disjointAll_matches t x cs hp.1 g2
            rw [List.filter_cons_of_neg (by simp [hx]), List.filter_eq_self.2 h3] at this
            exact this

mutual
/-- Encode then decode, for every type. -/
theorem rt : ∀ (t : Ty) (ine : Bool) (v : Val) (b : Bytes), t.wf = true → t.valid v = true →
    enc ine t v = some b → RT ine t v b
  | .prim k a, ine, v, b, hw, hv, he => rt_prim ine k a v b hw hv he
  | .seq s a cs, ine, v, b, hw, hv, he => rt_seq ine s a cs v b (rtComps cs) hw hv he
  | .of s a t, ine, v, b, hw, hv, he => rt_of ine s a t v b (rt t ine) hw hv he
  | .choice a cs, ine, v, b, hw, hv, he => rt_choice ine a cs v b (rtAlt cs ine) hw hv he
  | .bad _, _, _, _, hw, _, _ => by simp [Ty.wf] at hw
theorem rtComps : ∀ (cs : Comps) (vs : Vals) (ps : List (TagSet × Bytes)), cs.wf = true → cs.valid vs = true →
    encComps cs vs = some ps → RTC cs vs ps
  | .nil, vs, ps, _, hv, he => by
    cases vs with
    | cons => simp [Comps.valid] at hv
    | nil =>
      simp only [encComps, Option.some.injEq] at he; subst he
      refine ⟨[], .nil, trivial, ?_, by simp, ?_, trivial, rfl, ?_, ?_, ?_⟩
      · intro _; exact ⟨by simp [decComps], by simp⟩
      · intro _ ys hp; simp [decSet]
      · intro _; exact ⟨by simp [encComps], rfl⟩
      · intro _; rfl
      · intro _; exact ⟨fun _ => by simp [Comps.strictSeq], fun _ _ _ => by simp [Comps.strictSet]⟩
  | .cons f t cs, vs, ps, hw, hv, he => rtc_cons f t cs vs ps (rt t) (rtComps cs) hw hv he
theorem rtAlt : ∀ (cs : Comps) (ine : Bool) (i : Nat) (v : Val) (b : Bytes), cs.wf = true → cs.validAlt i v = true →
    encAlt ine cs i v = some b → RTA ine cs i v b
  | .nil, _, _, _, _, _, hv, _ => by simp [Comps.validAlt] at hv
  | .cons f t cs, ine, 0, v, b, hw, hv, he => by
    simp only [Comps.wf, Bool.and_eq_true] at hw
    simp only [Comps.validAlt] at hv
    simp only [encAlt] at he
    rcases rt t ine v b hw.1 hv he with ⟨h1, h2, h3⟩ | ⟨h0, x, w, h1, h2, h3, h4, h5⟩
    · exact Or.inl ⟨h1, h2, by simpa [Comps.vanishAlt] using h3⟩
    · refine Or.inr ⟨by simpa [Comps.vanishAlt] using h0, x, w, h1, by simp [Comps.matches, h2], ?_, ?_, ?_⟩
      · intro _ k; simp [decAlt, h2, h3]
      · simpa [Comps.sameAlt] using h4
      · intro hs
        simp only [Comps.stable, Bool.and_eq_true] at hs
        obtain ⟨k1, k2, k3⟩ := h5 hs.1.1
        exact ⟨by simpa [encAlt] using k1, by simpa [Comps.validAlt] using k2, fun _ => by simpa [Comps.strictAlt, h2] using k3⟩
  | .cons f t cs, ine, i + 1, v, b, hw, hv, he => by
    simp only [Comps.wf, Bool.and_eq_true] at hw
    simp only [Comps.validAlt] at hv
    simp only [encAlt] at he
    rcases rtAlt cs ine i v b hw.2 hv he with ⟨h1, h2, h3⟩ | ⟨h0, x, w, h1, h2, h3, h4, h5⟩
    · exact Or.inl ⟨h1, h2, by simpa [Comps.vanishAlt] using h3⟩
    · refine Or.inr ⟨by simpa [Comps.vanishAlt] using h0, x, w, h1, by simp [Comps.matches, h2], ?_, ?_, ?_⟩
      · intro hp k
        simp only [Comps.pairOk, Bool.and_eq_true] at hp
        have hx := Ty.disjointAll_matches' t x cs hp.1 h2
        simp only [decAlt, hx, Bool.false_eq_true, if_false]
        rw [h3 hp.2 (k + 1)]
        have : k + 1 + i = k + (i + 1) := by omega
        rw [this]
      · simpa [Comps.sameAlt] using h4
      · intro hs
        simp only [Comps.stable, Bool.and_eq_true] at hs
        obtain ⟨k1, k2, k3⟩ := h5 hs.2
        refine ⟨by simpa [encAlt] using k1, by simpa [Comps.validAlt] using k2, fun hp => ?_⟩
        simp only [Comps.pairOk, Bool.and_eq_true] at hp
        have hx := Ty.disjointAll_matches' t x cs hp.1 h2
        simpa [Comps.strictAlt, hx] using k3 hp.2
end

end Asn1
end Verif
