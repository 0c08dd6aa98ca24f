import Verif.Asn1.Der
import Verif.Asn1.DerDecode

/-!
# The encoder finds every DER encoding

For values without empty optional collections and without the primitive values that pyasn1 gets wrong.
-/

namespace Verif
namespace Asn1

open Der

theorem tagBefore_asymm (a b : Octets) (h1 : tagBefore a b) (h2 : tagBefore b a) : False := by
  obtain ⟨c, k, n, r, c', k', n', r', ⟨i, hi, rfl⟩, ⟨i', hi', rfl⟩, h⟩ := h1
  obtain ⟨d, l, m, s, d', l', m', s', ⟨j, hj, e⟩, ⟨j', hj', e'⟩, g⟩ := h2
  rw [identifier_iff] at hi hi' hj hj'
  subst hi hi' hj hj'
  have r1 := readTag_encTag c k n r
  rw [e', readTag_encTag] at r1
  have r2 := readTag_encTag c' k' n' r'
  rw [e, readTag_encTag] at r2
  simp only [Option.some.injEq, Prod.mk.injEq] at r1 r2
  obtain ⟨rfl, _, rfl, _⟩ := r1
  obtain ⟨rfl, _, rfl, _⟩ := r2
  rcases h with h | ⟨rfl, h⟩
  · rcases g with g | ⟨rfl, g⟩ <;> omega
  · rcases g with g | ⟨_, g⟩ <;> omega

/-- Octets that are not after each other differ in trailing zeros only. -/
theorem notAfter_antisymm : ∀ a b : Octets, notAfter a b → notAfter b a → ∃ m n, a ++ List.replicate m 0 = b ++ List.replicate n 0
  | [], b, _, h => by
    rw [notAfter_nil_right] at h
    exact ⟨b.length, 0, by simpa using h.symm⟩
  | a :: as, [], h, _ => by
    rw [notAfter_nil_right] at h
    exact ⟨0, (a :: as).length, by simpa using h⟩
  | a :: as, b :: bs, h1, h2 => by
    simp only [notAfter] at h1 h2
    rcases h1 with h1 | ⟨rfl, h1⟩
    · rcases h2 with h2 | ⟨rfl, h2⟩ <;> omega
    · have h2 : notAfter bs as := by
        rcases h2 with h2 | ⟨_, h2⟩
        · omega
        · exact h2
      obtain ⟨m, n, h⟩ := notAfter_antisymm as bs h1 h2
      exact ⟨m, n, by simp [h]⟩

theorem isTLV_prefix {a b : Bytes} {x y : TLV} (ha : IsTLV a x) (hb : IsTLV b y) (r s : Bytes) (h : a ++ r = b ++ s) : a = b := by
  have h1 := ha.2 r
  rw [h, hb.2 s] at h1
  simp only [Option.some.injEq, Prod.mk.injEq] at h1
  rw [h1.2] at h
  exact List.append_cancel_right h

theorem arranged_tags_unique (es fs gs : List Octets) (h1 : Arranged tagBefore es fs) (h2 : Arranged tagBefore es gs) : fs = gs :=
  List.Perm.eq_of_pairwise (le := tagBefore) (fun a b _ _ h h' => (tagBefore_asymm a b h h').elim) h1.2 h2.2 (h1.1.trans h2.1.symm)

theorem arranged_octets_unique (es fs gs : List Octets) (ht : ∀ e ∈ es, ∃ x, IsTLV e x)
    (h1 : Arranged notAfter es fs) (h2 : Arranged notAfter es gs) : fs = gs := by
  refine List.Perm.eq_of_pairwise (le := notAfter) ?_ h1.2 h2.2 (h1.1.trans h2.1.symm)
  intro a b ha hb h h'
  obtain ⟨m, n, e⟩ := notAfter_antisymm a b h h'
  obtain ⟨x, hx⟩ := ht a (h1.1.mem_iff.1 ha)
  obtain ⟨y, hy⟩ := ht b (h2.1.mem_iff.1 hb)
  exact isTLV_prefix hx hy _ _ e

theorem enc_oneTLV (ine : Bool) (t : Ty) (v : Val) (b : Bytes) (hw : t.wf = true) (hv : t.valid v = true)
    (he : enc ine t v = some b) (hb : b ≠ []) : ∃ x, IsTLV b x := by
  rcases rt t ine v b hw hv he with ⟨rfl, _⟩ | ⟨_, x, w, h1, _⟩
  · exact absurd rfl hb
  · exact ⟨x, h1⟩

theorem map_fixed {α : Type} (f : α → α) : ∀ l : List α, l.map f = l → ∀ x ∈ l, f x = x
  | [], _, _, h => by simp at h
  | y :: l, h, x, hx => by
    simp only [List.map_cons, List.cons.injEq] at h
    rcases List.mem_cons.1 hx with rfl | hx
    · exact h.1
    · exact map_fixed f l h.2 x hx

theorem filter_map_fixed {α : Type} (p : α → Bool) (f : α → α) (l : List α) (h : (l.filter p).map f = l) :
    (∀ x ∈ l, p x = true) ∧ ∀ x ∈ l, f x = x := by
  have hl := congrArg List.length h
  simp only [List.length_map] at hl
  have hall : l.filter p = l := List.filter_eq_self.2 (List.length_filter_eq_length_iff.1 hl)
  rw [hall] at h
  exact ⟨List.filter_eq_self.1 hall, map_fixed f l h⟩

theorem each2_mapOpt (f : Val → Option Bytes) (p : Val → Octets → Prop) : ∀ (vs : List Val) (es : List Octets), each2 p vs es →
    (∀ v ∈ vs, ∀ e, p v e → f v = some e) →
    ∃ ps, mapOpt (fun v => (f v).map (fun b => (b, v))) vs = some ps ∧ ps.map Prod.fst = es
  | [], [], _, _ => ⟨[], rfl, rfl⟩
  | [], _ :: _, h, _ => h.elim
  | _ :: _, [], h, _ => h.elim
  | v :: vs, e :: es, h, ih => by
    obtain ⟨ps, h1, h2⟩ := each2_mapOpt f p vs es h.2 (fun u hu => ih u (List.mem_cons_of_mem _ hu))
    have h3 := ih v List.mem_cons_self e h.1
    exact ⟨(e, v) :: ps, by simp [mapOpt, h1, h3], by simp [h2]⟩

theorem put_intro {c : Bool} {ts : TagSet} {x b : Bytes} (h : wrap true ts x = some b) (hc : c = false) :
    (if c then some [] else wrap true ts x) = some b := by
  rw [hc]; simpa using h

mutual
theorem encT_of : ∀ (t : Ty) (ine : Bool) (v : Val) (b : Bytes), t.wf = true → t.stable = true → t.derOk = true →
    t.valid v = true → care t v → t.drop ine v = v → (ine = true → t.vanish v = false) → encodes t v b → enc ine t v = some b
  | .prim k a, ine, v, b, hw, _, hd, hv, hc, _, _, he => by
    simp only [encodes] at he
    obtain ⟨c, h1, h2⟩ := he
    simp only [Ty.valid, Bool.and_eq_true] at hv
    rw [contents_iff _ k v c hv.1.1 hc] at h1
    simp only [enc, h1, Option.bind_some]
    refine (tagged_iff false a.tags _ c b ?_).1 h2
    simp only [Ty.wf] at hw
    by_cases hk : k = .any
    · subst hk
      simp only [Ty.derOk, beq_self_eq_true, Bool.not_true, Bool.false_or] at hd
      cases ht : a.tags with
      | nil => rfl
      | cons t ts =>
        rw [ht] at hd
        simpa [fits] using hd
    · have hkb : (k == Prim.any) = false := by simpa using hk
      simp only [hkb, Bool.false_eq_true, if_false] at hw ⊢
      exact fits_prim _ hw
  | .seq s a cs, ine, v, b, hw, hst, hd, hv, hc, hdr, hva, he => by
    cases v <;> simp [Ty.valid] at hv
    rename_i vs
    simp only [Ty.wf, Bool.and_eq_true] at hw
    simp only [Ty.stable] at hst
    simp only [Ty.derOk, Bool.and_eq_true, Bool.or_eq_true, Bool.not_eq_true'] at hd
    simp only [care] at hc
    simp only [Ty.drop, Val.record.injEq] at hdr
    simp only [encodes] at he
    obtain ⟨es, fs, hco, har, ht⟩ := he
    rw [tagged_iff true _ _ _ _ (fits_cons _)] at ht
    obtain ⟨ps, hps, hne, hes⟩ := encC_of cs vs es hw.1.1.2 hst hd.1 hv.1 hc hdr hco
    obtain ⟨h1, h2, _, h3⟩ := derC cs vs ps hw.1.1.2 hst hd.1 hv.1 hc hps
    have hfil : ps.filter (fun p => !p.2.isEmpty) = ps := by
      rw [List.filter_eq_self]; intro p hp; simpa using hne p hp
    have hfs : fs = (if s then sortBy tagsLe Prod.fst ps else ps).map Prod.snd := by
      cases s with
      | false => simp only [Bool.false_eq_true, if_false] at har ⊢; rw [har, hes]
      | true =>
        simp only [if_true] at har ⊢
        refine arranged_tags_unique es _ _ har ⟨?_, ?_⟩
        · rw [← hes]; exact (sortBy_perm _ _ _).map _
        · have := sorted_tagBefore ps (h3 (by simpa using hd.2)) h2
          rw [List.filter_eq_self.2] at this
          · rw [List.pairwise_map]; exact this
          · intro p hp; simpa using hne p ((sortBy_perm _ _ _).mem_iff.1 hp)
    have hfm : fs.flatten = (if s then sortBy tagsLe Prod.fst ps else ps).flatMap Prod.snd := by
      rw [hfs]; rfl
    simp only [enc]
    rw [if_pos hv.2, hps]
    rw [hfm] at ht
    refine put_intro ht ?_
    rw [isEmpty_sorted]
    obtain ⟨_, _, _, _, _, _, _, h6, _⟩ := rtComps cs vs ps hw.1.1.2 hv.1 hps
    rw [h6]
    cases hi : ine with
    | false => rfl
    | true => simpa [Ty.vanish] using hva hi
  | .of s a t, ine, v, b, hw, hst, hd, hv, hc, hdr, hva, he => by
    cases v <;> simp [Ty.valid] at hv
    rename_i vs
    simp only [Ty.wf, Bool.and_eq_true] at hw
    simp only [Ty.stable, Bool.and_eq_true] at hst
    simp only [Ty.derOk] at hd
    simp only [care] at hc
    rw [Vals.every_iff, List.all_eq_true] at hv
    simp only [Ty.drop, Val.list.injEq] at hdr
    have hdr' := congrArg Vals.toList hdr
    rw [Vals.toList_ofList] at hdr'
    obtain ⟨hk1, hk2⟩ := filter_map_fixed _ _ _ hdr'
    simp only [encodes] at he
    obtain ⟨es, fs, hel, har, ht⟩ := he
    rw [tagged_iff true _ _ _ _ (fits_cons _)] at ht
    obtain ⟨ps, hps, hes⟩ := each2_mapOpt (enc ine t) (encodes t) _ _ hel (by
      intro u hu e hue
      refine encT_of t ine u e hw.2 hst.1 hd (hv.1 u hu) (hc u hu) (hk2 u hu) ?_ hue
      intro hi
      have := hk1 u hu
      simpa [hi] using this)
    obtain ⟨h1, h2⟩ := mapOpt_pairs' (enc ine t) _ _ hps
    have hm : ∀ p ∈ ps, p.2 ∈ vs.toList := by
      intro p hp; rw [← h1]; exact List.mem_map_of_mem hp
    have hne : ∀ p ∈ ps, p.1 ≠ [] := by
      intro p hp h
      have := enc_isEmpty ine t _ _ hw.2 (hv.1 _ (hm p hp)) (h2 p hp)
      have h' := hk1 _ (hm p hp)
      rw [← this, h] at h'
      simp at h'
    have hfs : fs = (if s then sortChunks ps else ps).map Prod.fst := by
      cases s with
      | false => simp only [Bool.false_eq_true, if_false] at har ⊢; rw [har, hes]
      | true =>
        simp only [if_true] at har ⊢
        refine arranged_octets_unique es _ _ ?_ har ⟨?_, ?_⟩
        · intro e hee
          rw [← hes] at hee
          obtain ⟨p, hp, rfl⟩ := List.mem_map.1 hee
          exact enc_oneTLV ine t _ _ hw.2 (hv.1 _ (hm p hp)) (h2 p hp) (hne p hp)
        · rw [← hes]; exact (sortBy_perm _ _ _).map _
        · rw [List.pairwise_map]; exact sortChunks_pairwise ps
    have hfm : fs.flatten = (if s then sortChunks ps else ps).flatMap Prod.fst := by
      rw [hfs]; rfl
    simp only [enc]
    rw [if_pos hv.2, hps]
    rw [hfm] at ht
    refine put_intro ht ?_
    cases hi : ine with
    | false => rfl
    | true =>
      rw [Bool.true_and, flatMap_isEmpty]
      have hvan := hva hi
      simp only [Ty.vanish, Vals.every_iff] at hvan
      have hp : (if s then sortChunks ps else ps).Perm ps := by
        cases s with
        | false => exact List.Perm.refl _
        | true => exact sortBy_perm _ _ _
      rw [hp.all_eq]
      rw [← h1] at hvan
      rw [List.all_map] at hvan
      rw [← hvan]
      rw [Bool.eq_iff_iff, List.all_eq_true, List.all_eq_true]
      constructor
      · intro h p hp; exact absurd (by simpa using h p hp) (hne p hp)
      · intro h p hp
        have := hk1 _ (hm p hp)
        have h' := h p hp
        simp only [Function.comp] at h'
        simp [hi, h'] at this
  | .choice a cs, ine, v, b, hw, hst, hd, hv, hc, hdr, hva, he => by
    cases v <;> simp [Ty.valid] at hv
    rename_i i v
    simp only [Ty.wf, Bool.and_eq_true] at hw
    simp only [Ty.stable] at hst
    simp only [Ty.derOk] at hd
    simp only [care] at hc
    simp only [Ty.drop, Val.alt.injEq, true_and] at hdr
    simp only [Ty.vanish] at hva
    simp only [encodes] at he
    obtain ⟨c, hal, ht⟩ := he
    rw [tagged_iff true _ _ _ _ (fits_cons _)] at ht
    have h1 := encA_of cs ine i v c hw.1.2 hst hd hv hc hdr hva hal
    simp only [enc, h1]
    refine put_intro ht ?_
    rcases rtAlt cs ine i v c hw.1.2 hv h1 with ⟨_, h2, h3⟩ | ⟨h0, x, w, h2, _⟩
    · rw [hva h2] at h3; cases h3
    · have := h2.1
      cases c with
      | nil => exact absurd rfl this
      | cons => simp
  | .bad _, _, _, _, hw, _, _, _, _, _, _, _ => by simp [Ty.wf] at hw
theorem encC_of : ∀ (cs : Comps) (vs : Vals) (es : List Bytes), cs.wf = true → cs.stable = true →
    cs.derOk = true → cs.valid vs = true → cares cs vs → cs.drop vs = vs → components cs vs es →
    ∃ ps, encComps cs vs = some ps ∧ (∀ p ∈ ps, p.2 ≠ []) ∧ ps.map Prod.snd = es
  | .nil, vs, es, _, _, _, hv, _, _, he => by
    cases vs with
    | cons => simp [Comps.valid] at hv
    | nil =>
      simp only [components] at he; subst he
      exact ⟨[], by simp [encComps], by simp, rfl⟩
  | .cons f t cs, .nil, es, _, _, _, hv, _, _, _ => by simp [Comps.valid] at hv
  | .cons f t cs, .cons v vs, es, hw, hst, hd, hv, hc, hdr, he => by
    simp only [Comps.wf, Bool.and_eq_true] at hw
    simp only [Comps.stable, Bool.and_eq_true] at hst
    simp only [Comps.derOk, Bool.and_eq_true] at hd
    simp only [Comps.valid, Bool.and_eq_true] at hv
    simp only [cares] at hc
    simp only [Comps.drop, Vals.cons.injEq] at hdr
    simp only [components] at he
    have ih := fun es' h => encC_of cs vs es' hw.2 hst.2 hd.2 hv.2 hc.2 hdr.2 h
    have put : ∀ e es', es = e :: es' → encodes t v e → components cs vs es' → t.valid v = true → care t v →
        t.drop f.mode.isOpt v = v → (f.mode.isOpt = true → t.vanish v = false) → f.mode ≠ .dflt v →
        ∃ ps, encComps (.cons f t cs) (.cons v vs) = some ps ∧ (∀ p ∈ ps, p.2 ≠ []) ∧ ps.map Prod.snd = es := by
      intro e es' hes hen hco hval hcar hdrop hvan hnd
      obtain ⟨ps, h1, h2, h3⟩ := ih es' hco
      have he := encT_of t f.mode.isOpt v e hw.1 hst.1.1 hd.1 hval hcar hdrop hvan hen
      refine ⟨(setKey t v, e) :: ps, encComps_put h1 (Ty.valid_ne_absent t v hval) hnd he, ?_, by simp [h3, hes]⟩
      intro p hp
      rcases List.mem_cons.1 hp with rfl | hp
      · intro h
        have h' := enc_isEmpty _ t v e hw.1 hval he
        simp only at h
        rw [h] at h'
        simp only [List.isEmpty_nil, Bool.true_eq, Bool.and_eq_true] at h'
        rw [hvan h'.1] at h'
        exact absurd h'.2 (by simp)
      · exact h2 p hp
    have hc1 := hc.1
    have hd1 := hdr.1
    cases hf : f.mode with
    | req =>
      simp only [hf] at he hv hc1 hd1
      obtain ⟨e, es', h1, h2, h3⟩ := he
      exact put e es' h1 h2 h3 hv.1 hc1 (by simpa [hf, Mode.isOpt] using hd1) (by simp [hf, Mode.isOpt]) (by simp [hf])
    | opt =>
      simp only [hf, Bool.or_eq_true, beq_iff_eq] at he hv hc1 hd1
      rcases he with ⟨h1, h2⟩ | ⟨h0, e, es', h1, h2, h3⟩
      · obtain ⟨ps, g1, g2, g3⟩ := ih es h2
        exact ⟨ps, encComps_skip g1 (by simp [hf]) (Or.inl h1), g2, g3⟩
      · have hvn : t.vanish v = false := by
          cases hq : t.vanish v with
          | false => rfl
          | true => simp [hq] at hd1; exact absurd hd1.symm h0
        refine put e es' h1 h2 h3 (hv.1.resolve_left h0) (hc1.resolve_left h0) ?_ (fun _ => hvn) (by simp [hf])
        simpa [hf, Mode.isOpt, h0, hvn] using hd1
    | dflt d =>
      simp only [hf, Bool.or_eq_true, beq_iff_eq] at he hv hc1 hd1
      rcases he with ⟨h1, h2⟩ | ⟨h0, e, es', h1, h2, h3⟩
      · obtain ⟨ps, g1, g2, g3⟩ := ih es h2
        exact ⟨ps, encComps_skip g1 (by simp [hf]) (Or.inr (by rw [hf, h1])), g2, g3⟩
      · refine put e es' h1 h2 h3 (hv.1.resolve_left h0) (hc1.resolve_left h0) ?_ (by simp [hf, Mode.isOpt]) (by simp [hf, Ne.symm h0])
        simpa [hf, Mode.isOpt, h0] using hd1
theorem encA_of : ∀ (cs : Comps) (ine : Bool) (i : Nat) (v : Val) (b : Bytes), cs.wf = true → cs.stable = true →
    cs.derOk = true → cs.validAlt i v = true → careAlt cs i v → cs.dropAlt ine i v = v →
    (ine = true → cs.vanishAlt i v = false) → alternative cs i v b → encAlt ine cs i v = some b
  | .nil, _, _, _, _, _, _, _, hv, _, _, _, _ => by simp [Comps.validAlt] at hv
  | .cons f t cs, ine, 0, v, b, hw, hst, hd, hv, hc, hdr, hva, he => by
    simp only [Comps.wf, Bool.and_eq_true] at hw
    simp only [Comps.stable, Bool.and_eq_true] at hst
    simp only [Comps.derOk, Bool.and_eq_true] at hd
    simp only [Comps.validAlt] at hv
    simp only [careAlt] at hc
    simp only [Comps.dropAlt] at hdr
    simp only [Comps.vanishAlt] at hva
    simp only [alternative] at he
    simpa [encAlt] using encT_of t ine v b hw.1 hst.1.1 hd.1 hv hc hdr hva he
  | .cons f t cs, ine, i + 1, v, b, hw, hst, hd, hv, hc, hdr, hva, he => by
    simp only [Comps.wf, Bool.and_eq_true] at hw
    simp only [Comps.stable, Bool.and_eq_true] at hst
    simp only [Comps.derOk, Bool.and_eq_true] at hd
    simp only [Comps.validAlt] at hv
    simp only [careAlt] at hc
    simp only [Comps.dropAlt] at hdr
    simp only [Comps.vanishAlt] at hva
    simp only [alternative] at he
    simpa [encAlt] using encA_of cs ine i v b hw.2 hst.2 hd.2 hv hc hdr hva he
end

end Asn1
end Verif
