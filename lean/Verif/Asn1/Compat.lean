import Verif.Spec.Compat
import Verif.Asn1.RtLemmas
import Verif.Asn1.Sound

/-!
# A newer schema reads what an older one reads (for C28)
-/

namespace Verif
namespace Asn1

/-! ## Constraints -/

mutual
theorem conj_ok (s : Subject) : ∀ c : Constraint, c.ok s = c.conj.all (fun d => d.ok s)
  | .inter cs => by rw [Constraint.ok, Constraint.conj, conj_all s cs]
  | .union _ => by simp [Constraint.conj]
  | .size _ _ => by simp [Constraint.conj]
  | .range _ _ => by simp [Constraint.conj]
  | .single _ => by simp [Constraint.conj]
  | .alphabet _ => by simp [Constraint.conj]
  | .withComps _ => by simp [Constraint.conj]
  | .invalid => by simp [Constraint.conj]
theorem conj_all (s : Subject) : ∀ cs : Constraints, cs.all s = cs.conj.all (fun d => d.ok s)
  | .nil => by simp [Constraints.all, Constraints.conj]
  | .cons c cs => by simp [Constraints.all, Constraints.conj, conj_ok s c, conj_all s cs]
end

theorem within_ok (s : Subject) (c d : Constraint) (h : c.within d = true) (hc : c.ok s = true) : d.ok s = true := by
  have heq : c = d → d.ok s = true := fun e => e ▸ hc
  cases c with
  | size l u =>
    cases d with
    | size l' u' =>
      simp only [Constraint.within, Bool.and_eq_true] at h
      simp only [Constraint.ok] at hc ⊢
      cases hn : s.len with
      | none => rw [hn] at hc; simp at hc
      | some n =>
        rw [hn] at hc
        simp only [Bool.and_eq_true] at hc ⊢
        exact ⟨Bound.le_trans _ _ _ h.1 hc.1, Bound.le_trans _ _ _ hc.2 h.2⟩
    | _ => simp [Constraint.within] at h
  | range l u =>
    cases d with
    | range l' u' =>
      simp only [Constraint.within, Bool.and_eq_true] at h
      cases s with
      | mapping n ns => simp [Constraint.ok] at hc
      | simple v =>
        cases v <;> try (simp [Constraint.ok] at hc; done)
        simp only [Constraint.ok, Bool.and_eq_true] at hc ⊢
        exact ⟨Bound.le_trans _ _ _ h.1 hc.1, Bound.le_trans _ _ _ hc.2 h.2⟩
    | _ => simp [Constraint.within] at h
  | alphabet cs =>
    cases d with
    | alphabet ds =>
      cases ds with
      | nil => cases s <;> rfl
      | cons d ds =>
        cases cs with
        | nil => simp [Constraint.within] at h
        | cons c cs =>
          simp only [Constraint.within, List.isEmpty_cons, Bool.false_or, Bool.not_false, Bool.true_and,
            List.all_eq_true] at h
          simp only [Constraint.ok] at hc ⊢
          cases s with
          | mapping n ns => cases n <;> simp [Subject.charsIn] at hc ⊢
          | simple v =>
            cases v <;> simp only [Subject.charsIn] at hc ⊢ <;> try exact hc
            simp only [List.all_eq_true] at hc ⊢
            intro x hx
            exact h x (by simpa using hc x hx)
    | _ => simp [Constraint.within] at h
  | _ => exact heq (by simpa [Constraint.within] using h)

theorem implies_ok (s : Subject) (c d : Constraint) (h : c.implies d = true) (hc : c.ok s = true) : d.ok s = true := by
  rw [conj_ok] at hc ⊢
  simp only [List.all_eq_true] at hc ⊢
  intro y hy
  simp only [Constraint.implies, List.all_eq_true, List.any_eq_true] at h
  obtain ⟨x, hx, hw⟩ := h y hy
  exact within_ok s x y hw (hc x hx)

/-! ## Elements -/

/-- The element was read from octets. -/
def TLV.whole (x : TLV) : Prop := readTLV x.raw = some (x, [])

theorem parse_whole : ∀ (n : Nat) (b : Bytes) (xs : List TLV), parseTLVs n b = some xs → ∀ x ∈ xs, x.whole
  | n, [], xs, h => by
    cases n <;> simp_all [parseTLVs]
  | 0, _ :: _, xs, h => by simp [parseTLVs] at h
  | n + 1, c :: b, xs, h => by
    simp only [parseTLVs] at h
    split at h
    · simp at h
    · rename_i y r hy
      split at h
      · simp at h
      · rename_i ys hys
        simp only [Option.some.injEq] at h
        subst h
        intro x hx
        rcases List.mem_cons.1 hx with rfl | hx
        · exact readTLV_raw _ _ _ hy
        · exact parse_whole n r ys hys x hx

theorem innerItems_whole (a : Attrs) (x : TLV) (xs : List TLV) (h : innerItems a x = some xs) : ∀ y ∈ xs, y.whole := by
  simp only [innerItems] at h
  split at h
  · simp at h
  · split at h
    · exact parse_whole _ _ _ h
    · simp at h

theorem unwrap_has : ∀ (ts : List Tag) (x y : TLV), unwrap ts x = some y → ∃ t, ts.head? = some t ∧ x.has t = true
  | [], _, _, h => by simp [unwrap] at h
  | [t], x, y, h => by
    simp only [unwrap] at h
    split at h
    · exact ⟨t, rfl, by assumption⟩
    · simp at h
  | t :: t' :: ts, x, y, h => by
    simp only [unwrap] at h
    split at h
    · rename_i hc
      simp only [Bool.and_eq_true] at hc
      exact ⟨t, rfl, hc.1.1⟩
    · simp at h

theorem unwrap_whole : ∀ (ts : List Tag) (x y : TLV), x.whole → unwrap ts x = some y → y.whole
  | [], _, _, _, h => by simp [unwrap] at h
  | [t], x, y, hx, h => by
    simp only [unwrap] at h
    split at h
    · simp only [Option.some.injEq] at h
      exact h ▸ hx
    · simp at h
  | t :: t' :: ts, x, y, hx, h => by
    simp only [unwrap] at h
    split at h
    · split at h
      · rename_i z r hz
        exact unwrap_whole (t' :: ts) z y (readTLV_raw _ _ _ hz) h
      · simp at h
    · simp at h

theorem decT_whole (t : Ty) (x : TLV) (v : Val) (hx : x.whole) (h : decT t x = some v) : decode t x.raw = some (v, []) := by
  simp only [decode]
  rw [show readTLV x.raw = some (x, []) from hx]
  simp [h]

theorem unwrap_last (a : Attrs) (x y : TLV) (h : unwrap a.tags.reverse x = some y) :
    ∃ t, a.tags.getLast? = some t ∧ x.has t = true := by
  obtain ⟨t, ht, hx⟩ := unwrap_has _ _ _ h
  exact ⟨t, by simpa using ht, hx⟩

mutual
/-- Only a tagged ANY reads elements that do not carry its tag. -/
theorem decT_matches : ∀ (t : Ty) (x : TLV) (v : Val), t.taggedAny = false → decT t x = some v → t.matches x = true
  | .prim k a, x, v, ha, h => by
    simp only [decT, decPrimT] at h
    split at h
    · rename_i hk
      simp only [beq_iff_eq] at hk
      subst hk
      simp only [Ty.taggedAny, Bool.not_eq_false', List.isEmpty_iff] at ha
      simp [Ty.matches, ha]
    · split at h
      · simp at h
      · rename_i y hy
        obtain ⟨t, ht, hx⟩ := unwrap_last a x y hy
        simp [Ty.matches, ht, hx]
  | .seq s a cs, x, v, ha, h => by
    simp only [decT, innerItems] at h
    cases hy : unwrap a.tags.reverse x with
    | none => simp [hy] at h
    | some y =>
      obtain ⟨t, ht, hx⟩ := unwrap_last a x y hy
      simp [Ty.matches, ht, hx]
  | .of s a t, x, v, ha, h => by
    simp only [decT, innerItems] at h
    cases hy : unwrap a.tags.reverse x with
    | none => simp [hy] at h
    | some y =>
      obtain ⟨t, ht, hx⟩ := unwrap_last a x y hy
      simp [Ty.matches, ht, hx]
  | .choice a cs, x, v, ha, h => by
    simp only [decT] at h
    cases hts : a.tags with
    | nil =>
      simp only [hts] at h
      simp [Ty.matches, hts, decAlt_matches cs 0 x v h]
    | cons t0 ts0 =>
      simp only [hts] at h
      rw [← hts] at h
      cases hy : unwrap a.tags.reverse x with
      | none => simp [hy] at h
      | some y =>
        obtain ⟨t, ht, hx⟩ := unwrap_last a x y hy
        simp [Ty.matches, ht, hx]
  | .bad _, _, _, _, h => by simp [decT] at h
theorem decAlt_matches : ∀ (cs : Comps) (k : Nat) (x : TLV) (v : Val), decAlt cs k x = some v → cs.matches x = true
  | .nil, _, _, _, h => by simp [decAlt] at h
  | .cons f t cs, k, x, v, h => by
    simp only [decAlt] at h
    split at h
    · rename_i hm; simp [Comps.matches, hm]
    · simp [Comps.matches, decAlt_matches cs (k + 1) x v h]
end

/-- The alternative that was read. -/
theorem decAlt_get : ∀ (cs : Comps) (k : Nat) (x : TLV) (v : Val), decAlt cs k x = some v →
    ∃ i f t w, v = .alt (k + i) w ∧ cs.get? i = some (f, t) ∧ t.matches x = true ∧ decT t x = some w
  | .nil, _, _, _, h => by simp [decAlt] at h
  | .cons f t cs, k, x, v, h => by
    simp only [decAlt] at h
    split at h
    · rename_i hm
      split at h
      · rename_i w hw
        simp only [Option.some.injEq] at h
        exact ⟨0, f, t, w, h.symm, rfl, hm, hw⟩
      · simp at h
    · obtain ⟨i, g, u, w, hv, hg, hm, hw⟩ := decAlt_get cs (k + 1) x v h
      exact ⟨i + 1, g, u, w, by rw [hv]; congr 1; omega, hg, hm, hw⟩

/-- The alternative that fits is the one that is read, if no two have a tag in common. -/
theorem decAlt_pick : ∀ (cs : Comps) (k i : Nat) (f : Field) (t : Ty) (x : TLV) (w : Val), cs.pairOk = true →
    cs.get? i = some (f, t) → t.matches x = true → decT t x = some w → decAlt cs k x = some (.alt (k + i) w)
  | .nil, _, _, _, _, _, _, _, h, _, _ => by simp [Comps.get?] at h
  | .cons g u cs, k, 0, f, t, x, w, hp, h, hm, hw => by
    simp only [Comps.get?, Option.some.injEq, Prod.mk.injEq] at h
    obtain ⟨rfl, rfl⟩ := h
    simp [decAlt, hm, hw]
  | .cons g u cs, k, i + 1, f, t, x, w, hp, h, hm, hw => by
    simp only [Comps.pairOk, Bool.and_eq_true] at hp
    have hx := Ty.disjointAll_matches' u x cs hp.1 (Comps.matches_of_get cs i f t x h hm)
    rw [decAlt, hx, decAlt_pick cs (k + 1) i f t x w hp.2 h hm hw]
    simp only [Bool.false_eq_true, if_false]
    congr 2
    omega

/-- A SEQUENCE that reads the next element has a component that fits it. -/
theorem decComps_window : ∀ (ds : Comps) (x : TLV) (xs : List TLV) (ws : Vals), ds.windowPlain = true →
    decComps ds (x :: xs) = some ws → ds.windowMatches x = true
  | .nil, _, _, _, _, h => by simp [decComps] at h
  | .cons g u ds, x, xs, ws, hp, h => by
    simp only [Comps.windowPlain, Bool.and_eq_true, Bool.or_eq_true, Bool.not_eq_true'] at hp
    simp only [decComps] at h
    split at h
    · split at h
      · rename_i w _ hw _
        simp [Comps.windowMatches, decT_matches u x w hp.1 hw]
      · simp at h
    · rename_i hc
      simp only [Bool.or_eq_true, not_or, Bool.not_eq_true] at hc
      split at h
      · rename_i _ _ _ hr
        have := hp.2.resolve_left (by simp [hc.1.1])
        simp [Comps.windowMatches, hc.1.1, decComps_window ds x xs _ this hr]
      · simp at h

theorem skippable_skips (u : Ty) (ds : Comps) (x : TLV) (xs : List TLV) (ws : Vals) (hs : u.skippable ds = true)
    (h : decComps ds (x :: xs) = some ws) : u.matches x = false ∧ ds.windowMatches x = true := by
  simp only [Ty.skippable, Bool.and_eq_true] at hs
  have := decComps_window ds x xs ws hs.2 h
  exact ⟨Ty.disjointWindow_matches u x ds hs.1 this, this⟩

/-! ## The format of schema tags does not matter -/

theorem has_bare (x : TLV) (t t' : Tag) (h : (t.cls, t.num) = (t'.cls, t'.num)) : x.has t = x.has t' := by
  simp only [Prod.mk.injEq] at h
  simp only [TLV.has, h.1, h.2]

theorem unwrap_bare : ∀ (ts ts' : List Tag) (x : TLV), TagSet.bare ts = TagSet.bare ts' → unwrap ts x = unwrap ts' x
  | [], [], _, _ => rfl
  | [], _ :: _, _, h => by simp [TagSet.bare] at h
  | _ :: _, [], _, h => by simp [TagSet.bare] at h
  | [t], [t'], x, h => by
    simp only [TagSet.bare, List.map_cons, List.map_nil, List.cons.injEq, and_true] at h
    simp only [unwrap, has_bare x t t' h]
  | [_], _ :: _ :: _, _, h => by simp [TagSet.bare] at h
  | _ :: _ :: _, [_], _, h => by simp [TagSet.bare] at h
  | t :: s :: ts, t' :: s' :: ts', x, h => by
    have h' : TagSet.bare (s :: ts) = TagSet.bare (s' :: ts') := by
      simp only [TagSet.bare, List.map_cons, List.cons.injEq] at h ⊢
      exact h.2
    have h0 : (t.cls, t.num) = (t'.cls, t'.num) := by
      simp only [TagSet.bare, List.map_cons, List.cons.injEq] at h
      exact h.1
    simp only [unwrap, has_bare x t t' h0]
    split
    · split
      · exact unwrap_bare _ _ _ h'
      · rfl
    · rfl

theorem unwrap_tags (a b : TagSet) (x : TLV) (h : a.bare = b.bare) : unwrap a.reverse x = unwrap b.reverse x :=
  unwrap_bare _ _ x (by simp only [TagSet.bare, List.map_reverse] at h ⊢; rw [h])

theorem bare_nil (a b : TagSet) (h : a.bare = b.bare) : a = [] ↔ b = [] := by
  have := congrArg List.length h
  simp only [TagSet.bare, List.length_map] at this
  rw [← List.length_eq_zero_iff, ← List.length_eq_zero_iff, this]

theorem bare_getLast (a b : TagSet) (x : TLV) (l : Tag) (h : a.bare.getLast? = b.bare.getLast?) (ha : a.getLast? = some l) :
    ∃ m, b.getLast? = some m ∧ x.has m = x.has l := by
  simp only [TagSet.bare, List.getLast?_map, ha, Option.map_some] at h
  cases hb : b.getLast? with
  | none => simp [hb] at h
  | some m =>
    simp only [hb, Option.map_some, Option.some.injEq] at h
    exact ⟨m, rfl, has_bare x m l h.symm⟩

theorem decPrimT_bare (k : Prim) (a b : Attrs) (x : TLV) (h : a.tags.bare = b.tags.bare) (hk : k = .any) :
    decPrimT k a x = decPrimT k b x := by
  subst hk
  simp only [decPrimT, beq_self_eq_true, if_true]
  generalize a.tags = ts at h
  generalize b.tags = ts' at h
  match ts, ts', h with
  | [], [], _ => rfl
  | [], _ :: _, h => simp [TagSet.bare] at h
  | _ :: _, [], h => simp [TagSet.bare] at h
  | [t], [t'], h =>
    simp only [TagSet.bare, List.map_cons, List.map_nil, List.cons.injEq, and_true] at h
    simp only [has_bare x t t' h]
  | [_], _ :: _ :: _, h => simp [TagSet.bare] at h
  | _ :: _ :: _, [_], h => simp [TagSet.bare] at h
  | _ :: _ :: _, _ :: _ :: _, _ => rfl

theorem innerItems_bare (a b : Attrs) (x : TLV) (h : a.tags.bare = b.tags.bare) : innerItems a x = innerItems b x := by
  simp only [innerItems, unwrap_tags _ _ x h]

theorem never_ok (k : Prim) (c : Constraint) (v : Val) (h : c.never k = true) (hs : primShape k v = true) :
    c.ok (.simple v) = false := by
  cases c with
  | size l u =>
    simp only [Constraint.never, beq_iff_eq] at h
    subst h
    cases v <;> simp [primShape, primLegal] at hs
    simp [Constraint.ok, Subject.len]
  | _ => simp [Constraint.never] at h

theorem matches_last (t : Ty) (x : TLV) (l : Tag) (h : t.tags.getLast? = some l) : t.matches x = x.has l := by
  cases t with
  | bad => simp [Ty.tags] at h
  | _ => simp only [Ty.tags] at h; simp only [Ty.matches, h]

theorem sameLead_matches (u t : Ty) (x : TLV) (h : u.sameLead t = true) : u.matches x = t.matches x := by
  simp only [Ty.sameLead, Bool.or_eq_true, beq_iff_eq, Bool.and_eq_true] at h
  rcases h with h | ⟨h1, h2⟩
  · rw [h]
  · cases hl : u.tags.getLast? with
    | none => simp [TagSet.bare, List.getLast?_map, hl] at h1
    | some l =>
      obtain ⟨m, hm, he⟩ := bare_getLast u.tags t.tags x l h2 hl
      rw [matches_last u x l hl, matches_last t x m hm, he]

theorem sameLeads_matches (x : TLV) : ∀ ds cs : Comps, ds.sameLead cs = true → ds.matches x = cs.matches x
  | .nil, .nil, _ => rfl
  | .nil, .cons .., h => by simp [Comps.sameLead] at h
  | .cons .., .nil, h => by simp [Comps.sameLead] at h
  | .cons _ u ds, .cons _ t cs, h => by
    simp only [Comps.sameLead, Bool.and_eq_true] at h
    simp only [Comps.matches, sameLead_matches u t x h.1, sameLeads_matches x ds cs h.2]

theorem sameFirst_matches (u t : Ty) (x : TLV) (h : u.sameFirst t = true) : u.matches x = t.matches x := by
  simp only [Ty.sameFirst, Bool.or_eq_true] at h
  rcases h with h | h
  · exact sameLead_matches u t x h
  · split at h
    · rename_i b ds a cs
      simp only [Bool.and_eq_true, List.isEmpty_iff] at h
      simp only [Ty.matches, h.1.1, h.1.2, List.getLast?_nil]
      exact sameLeads_matches x ds cs h.2
    · cases h

/-! ## `sub` is `covers` for all values -/

theorem vals_every_all (p : Val → Bool) : ∀ vs : Vals, vs.every p = vs.toList.all p
  | .nil => rfl
  | .cons v vs => by simp [Vals.every, Vals.toList, vals_every_all p vs]

theorem admitsAlt_get : ∀ (cs : Comps) (i : Nat) (v : Val), cs.admitsAlt i v = true →
    ∃ p, cs.get? i = some p ∧ p ∈ cs.toList ∧ p.2.admits v = true
  | .nil, _, _, h => by simp [Comps.admitsAlt] at h
  | .cons f t cs, 0, v, h => ⟨(f, t), rfl, by simp [Comps.toList], h⟩
  | .cons f t cs, i + 1, v, h => by
    obtain ⟨p, h1, h2, h3⟩ := admitsAlt_get cs i v h
    exact ⟨p, h1, by simp [Comps.toList, h2], h3⟩

mutual
theorem empty_admits : ∀ (t : Ty) (v : Val), t.admits v = true → t.empty = false
  | .prim k a, v, h => by
    by_cases hk : k = .any
    · simp [Ty.empty, hk]
    · have hok : primShape k v = true ∧ a.spec.ok (.simple v) = true := by
        cases k <;> simp_all [Ty.admits]
      rw [conj_ok, List.all_eq_true] at hok
      simp only [Ty.empty, Bool.and_eq_false_iff, List.any_eq_false]
      refine .inr (fun c hc hn => ?_)
      have := hok.2 c hc
      rw [never_ok k c v hn hok.1] at this
      simp at this
  | .seq s a cs, v, h => by
    cases v <;> try (simp [Ty.admits] at h; done)
    simp only [Ty.admits, Bool.and_eq_true] at h
    exact empty_admitsC cs _ h.1
  | .of .., _, _ => rfl
  | .choice a cs, v, h => by
    cases v <;> try (simp [Ty.admits] at h; done)
    simp only [Ty.admits] at h
    exact empty_admitsA cs _ _ h
  | .bad _, _, _ => rfl
theorem empty_admitsC : ∀ (cs : Comps) (vs : Vals), cs.admits vs = true → cs.someEmpty = false
  | .nil, _, _ => rfl
  | .cons f t cs, .nil, h => by simp [Comps.admits] at h
  | .cons f t cs, .cons v vs, h => by
    simp only [Comps.admits, Bool.and_eq_true] at h
    simp only [Comps.someEmpty, empty_admitsC cs vs h.2, Bool.or_false]
    cases hf : f.mode with
    | req =>
      have := h.1
      rw [hf] at this
      simp [empty_admits t v this]
    | _ => simp [Mode.isReq]
theorem empty_admitsA : ∀ (cs : Comps) (i : Nat) (v : Val), cs.admitsAlt i v = true → cs.allEmpty = false
  | .nil, _, _, h => by simp [Comps.admitsAlt] at h
  | .cons f t cs, 0, v, h => by simp [Comps.allEmpty, empty_admits t v h]
  | .cons f t cs, i + 1, v, h => by simp [Comps.allEmpty, empty_admitsA cs i v h]
end

mutual
theorem covers_of_sub : ∀ (u t : Ty) (v : Val), u.sub t = true → t.admits v = true → u.covers t v = true
  | .prim k b, t, v, h, ha => by
    have he := empty_admits t v ha
    cases t with
    | prim k' a =>
      simp only [Ty.sub, he, Bool.false_or, Ty.covers, Bool.or_eq_true, Bool.and_eq_true] at h ⊢
      rcases h with h | h
      · refine .inl ⟨h.1, ?_⟩
        by_cases hk : k = .any
        · exact .inl (by simp [hk])
        · have hk' : k' = k := (beq_iff_eq.1 h.1.1).symm
          subst hk'
          have hok : primShape k' v = true ∧ a.spec.ok (.simple v) = true := by
            cases k' <;> simp_all [Ty.admits]
          rcases h.2 with h | h
          · simp [hk] at h
          · exact .inr (implies_ok _ _ _ h hok.2)
      · exact .inr h
    | _ => simpa [Ty.sub, he, Bool.false_or, Ty.covers] using h
  | .seq s b ds, t, v, h, ha => by
    have he := empty_admits t v ha
    cases t <;> try (simp [Ty.sub, he] at h; done)
    rename_i s' a cs
    cases v <;> try (simp [Ty.admits] at ha; done)
    rename_i vs
    simp only [Ty.sub, he, Bool.false_or, Ty.covers, Bool.and_eq_true, Ty.admits] at h ha ⊢
    refine ⟨h.1, ?_⟩
    cases s with
    | true => simpa using h.2
    | false =>
      simp only [Bool.false_eq_true, if_false] at h ⊢
      exact covers_of_subC ds cs vs h.2 ha.1
  | .of s b u, t, v, h, ha => by
    have he := empty_admits t v ha
    cases t <;> try (simp [Ty.sub, he] at h; done)
    rename_i s' a t
    cases v <;> try (simp [Ty.admits] at ha; done)
    rename_i vs
    simp only [Ty.sub, he, Bool.false_or, Ty.covers, Bool.and_eq_true, Ty.admits, vals_every_all, List.all_eq_true] at h ha ⊢
    exact ⟨h.1, fun v hv => covers_of_sub u t v h.2 (ha v hv)⟩
  | .choice b ds, t, v, h, ha => by
    have he := empty_admits t v ha
    cases t with
    | choice a cs =>
      simp only [Ty.sub, he, Bool.false_or, Bool.and_eq_true] at h
      cases v <;> try (simp [Ty.admits] at ha; done)
      rename_i i v
      simp only [Ty.admits] at ha
      obtain ⟨p, h1, h2, h3⟩ := admitsAlt_get cs i v ha
      simp only [List.all_eq_true] at h
      simp only [Ty.covers, Bool.and_eq_true, h1]
      exact ⟨h.1, h.2.1, covers_of_subA ds p.2 v (h.2.2 p h2) h3⟩
    | _ =>
      simp only [Ty.sub, he, Bool.false_or, Bool.and_eq_true] at h
      simp only [Ty.covers, Bool.and_eq_true]
      exact ⟨h.1, h.2.1, covers_of_subA ds _ v h.2.2 ha⟩
  | .bad _, t, v, h, ha => by simp [Ty.sub, empty_admits t v ha] at h
theorem covers_of_subC : ∀ (ds cs : Comps) (vs : Vals), ds.sub cs = true → cs.admits vs = true → ds.covers cs vs = true
  | .nil, .nil, _, _, _ => rfl
  | .nil, .cons .., _, h, _ => by simp [Comps.sub] at h
  | .cons g u ds, .nil, vs, h, ha => by
    simp only [Comps.sub, Comps.covers, Bool.and_eq_true] at h ⊢
    exact ⟨h.1, covers_of_subC ds .nil vs h.2 ha⟩
  | .cons g u ds, .cons f t cs, .nil, h, ha => by simp [Comps.admits] at ha
  | .cons g u ds, .cons f t cs, .cons v vs, h, ha => by
    simp only [Comps.sub] at h
    simp only [Comps.covers]
    split at h
    · rename_i hp
      simp only [hp, if_true]
      simp only [Bool.and_eq_true] at h
      have hcs : cs.admits vs = true := by
        simp only [Comps.admits, Bool.and_eq_true] at ha
        exact ha.2
      simp only [Bool.and_eq_true, h.1.1.1, covers_of_subC ds cs vs h.2 hcs, true_and, and_true, Bool.or_eq_true]
      simp only [Comps.admits, Bool.and_eq_true] at ha
      have ha := ha.1
      cases hf : f.mode with
      | req => rw [hf] at ha; exact .inr (covers_of_sub u t v h.1.2 ha)
      | opt =>
        rw [hf] at ha
        simp only [Bool.or_eq_true] at ha
        rcases ha with ha | ha
        · exact .inl ⟨rfl, ha⟩
        · exact .inr (covers_of_sub u t v h.1.2 ha)
      | dflt d =>
        rw [hf] at ha
        simp only [Bool.or_eq_true, beq_iff_eq] at ha
        have hd : t.admits d = true := by simpa [Field.admitsDefault, hf] using h.1.1.2
        rcases ha with ha | ha
        · exact .inr (covers_of_sub u t v h.1.2 (ha ▸ hd))
        · exact .inr (covers_of_sub u t v h.1.2 ha)
    · rename_i hp
      rw [if_neg hp]
      simp only [Bool.and_eq_true] at h ⊢
      exact ⟨h.1, covers_of_subC ds (.cons f t cs) (.cons v vs) h.2 ha⟩
theorem covers_of_subA : ∀ (ds : Comps) (t : Ty) (v : Val), ds.subAlt t = true → t.admits v = true → ds.coversAlt t v = true
  | .nil, _, _, h, _ => by simp [Comps.subAlt] at h
  | .cons g u ds, t, v, h, ha => by
    simp only [Comps.subAlt, Comps.coversAlt, Bool.or_eq_true, Bool.and_eq_true] at h ⊢
    rcases h with h | h
    · exact .inl ⟨h.1, covers_of_sub u t v h.2 ha⟩
    · exact .inr (covers_of_subA ds t v h ha)
end

/-! ## Reading -/

theorem reads_missing (g f : Mode) (v : Val) (hr : g.reads f = true) (hm : f.missing = some v) :
    g.missing = some v ∧ ((v = .absent ∧ f = .opt) ∨ (g = .dflt v ∧ f = .dflt v)) := by
  cases f <;> cases g <;> simp_all [Mode.reads, Mode.missing]

theorem fresh_missing (g : Mode) (h : g.isReq = false) : g.missing = some g.fresh := by
  cases g <;> simp_all [Mode.isReq, Mode.missing, Mode.fresh]

theorem pairs_of_length (g f : Field) (ds cs : Comps) (h : ds.length = cs.length) : pairs g f ds cs = true := by
  simp [pairs, h]

theorem subSet_length : ∀ ds cs : Comps, ds.subSet cs = true → ds.length = cs.length
  | .nil, .nil, _ => rfl
  | .nil, .cons .., h => by simp [Comps.subSet] at h
  | .cons .., .nil, h => by simp [Comps.subSet] at h
  | .cons _ _ ds, .cons _ _ cs, h => by
    simp only [Comps.subSet, Bool.and_eq_true] at h
    simp [Comps.length, subSet_length ds cs h.2]

theorem subSet_matches (x : TLV) : ∀ ds cs : Comps, ds.subSet cs = true → ds.matches x = cs.matches x
  | .nil, .nil, _ => rfl
  | .nil, .cons .., h => by simp [Comps.subSet] at h
  | .cons .., .nil, h => by simp [Comps.subSet] at h
  | .cons _ u ds, .cons _ t cs, h => by
    simp only [Comps.subSet, Bool.and_eq_true] at h
    simp [Comps.matches, subSet_matches x ds cs h.2, sameFirst_matches u t x h.1.1.1.1.2]

theorem mapOpt_rel {t u : Ty} : ∀ (xs : List TLV) (vs : List Val),
    (∀ x ∈ xs, ∀ v, v ∈ vs → decT t x = some v → ∃ w, decT u x = some w ∧ u.rel t v w) →
    mapOpt (decT t) xs = some vs → ∃ ws, mapOpt (decT u) xs = some ws ∧ vs.length = ws.length ∧
      ∀ p ∈ vs.zip ws, u.rel t p.1 p.2
  | [], vs, _, h => by
    simp only [mapOpt, Option.some.injEq] at h
    subst h
    exact ⟨[], rfl, rfl, by simp⟩
  | x :: xs, vs, ih, h => by
    simp only [mapOpt] at h
    split at h
    · rename_i v vs' hv hvs
      simp only [Option.some.injEq] at h
      subst h
      obtain ⟨w, hw, hr⟩ := ih x (by simp) v (by simp) hv
      obtain ⟨ws, hws, hl, hz⟩ := mapOpt_rel xs vs' (fun x hx v hv => ih x (by simp [hx]) v (by simp [hv])) hvs
      refine ⟨w :: ws, by simp [mapOpt, hw, hws], by simp [hl], ?_⟩
      intro p hp
      rcases List.mem_cons.1 hp with rfl | hp
      · exact hr
      · exact hz p hp
    · simp at h

theorem toList_ofList : ∀ l : List Val, (Vals.ofList l).toList = l
  | [] => rfl
  | _ :: l => by simp [Vals.ofList, Vals.toList, toList_ofList l]

theorem length_ofList : ∀ l : List Val, (Vals.ofList l).length = l.length
  | [] => rfl
  | _ :: l => by simp [Vals.ofList, Vals.length, length_ofList l]

theorem getLast?_zip {α β : Type} : ∀ (l : List α) (m : List β) (a : α), l.length = m.length → l.getLast? = some a →
    ∃ b, m.getLast? = some b ∧ (a, b) ∈ l.zip m
  | [], _, _, _, h => by simp at h
  | [a], [b], c, _, h => by
    simp only [List.getLast?_singleton, Option.some.injEq] at h
    subst h
    exact ⟨b, rfl, by simp⟩
  | _ :: a :: l, _ :: b :: m, c, hl, h => by
    rw [List.getLast?_cons_cons] at h
    obtain ⟨d, hd, hm⟩ := getLast?_zip (a :: l) (b :: m) c (by simpa using hl) h
    exact ⟨d, by rw [List.getLast?_cons_cons]; exact hd, List.mem_cons_of_mem _ hm⟩
  | [_], [], _, hl, _ => by simp at hl
  | [_], _ :: _ :: _, _, hl, _ => by simp at hl
  | _ :: _ :: _, [], _, hl, _ => by simp at hl
  | _ :: _ :: _, [_], _, hl, _ => by simp at hl

theorem anyLike_cases (u : Ty) (h : u.anyLike = true) : u.taggedAny = true ∨ u.bareAny = true := by
  cases u with
  | prim k a =>
    cases k <;> simp_all [Ty.anyLike, Ty.taggedAny, Ty.bareAny]
    cases a.tags <;> simp
  | _ => simp [Ty.anyLike] at h

theorem bareAny_matches (u : Ty) (x : TLV) (h : u.bareAny = true) : u.matches x = true := by
  cases u with
  | prim k a => cases k <;> simp_all [Ty.bareAny, Ty.matches]
  | _ => simp [Ty.bareAny] at h

theorem taggedAny_anyLike (u : Ty) (h : u.taggedAny = true) : u.anyLike = true := by
  cases u with
  | prim k a => cases k <;> simp_all [Ty.taggedAny, Ty.anyLike]
  | _ => simp [Ty.taggedAny] at h

/-- The newer component takes an element the older one takes and it can read. -/
theorem takes (g : Field) (u : Ty) (ds : Comps) (f : Field) (t : Ty) (x : TLV) (w : Val)
    (hd : decides g u ds f t = true) (hw : decT u x = some w) :
    (g.mode.isReq || u.matches x || (u.anyLike && !ds.windowMatches x)) = true := by
  simp only [decides, Bool.and_eq_true] at hd
  cases hu : u.taggedAny with
  | false => simp [decT_matches u x w hu hw]
  | true =>
    simp only [hu, if_true] at hd
    cases ds with
    | nil => simp [taggedAny_anyLike u hu, Comps.windowMatches]
    | cons h s ds => simp only at hd; simp [hd.2]

/-- The newer component leaves an element the older one leaves. -/
theorem leaves (g : Field) (u : Ty) (ds : Comps) (f : Field) (t : Ty) (x : TLV) (xs : List TLV) (ws : Vals)
    (hd : decides g u ds f t = true) (hf : f.mode.isReq = false) (hm : t.matches x = false)
    (hw : decComps ds (x :: xs) = some ws) :
    (g.mode.isReq || u.matches x || (u.anyLike && !ds.windowMatches x)) = false := by
  have hg : g.mode.isReq = false := by
    simp only [decides, Bool.and_eq_true] at hd
    have := hd.1
    cases hgm : g.mode <;> cases hfm : f.mode <;> simp_all [Mode.reads, Mode.isReq]
  simp only [decides, Bool.and_eq_true] at hd
  cases hu : u.taggedAny with
  | true =>
    simp only [hu, if_true] at hd
    cases ds with
    | nil => simp [decComps] at hw
    | cons h s ds => simp [hg] at hd
  | false =>
    simp only [hu, Bool.false_eq_true, if_false, Bool.or_eq_true, hf, false_or, Bool.and_eq_true] at hd
    have key : u.matches x = false := by
      rcases hd.2 with (h | h) | h
      · rw [sameFirst_matches u t x h, hm]
      · rw [bareAny_matches t x h.2] at hm; simp at hm
      · exact (skippable_skips u ds x xs ws h hw).1
    have : u.anyLike = false := by
      cases ha : u.anyLike with
      | false => rfl
      | true =>
        rcases anyLike_cases u ha with h | h
        · rw [hu] at h; simp at h
        · rw [bareAny_matches u x h] at key; simp at key
    simp [hg, key, this]

mutual
/-- What the older type reads from an element, the newer type reads too, if it covers the value. -/
theorem covers_dec : ∀ (u t : Ty) (x : TLV) (v : Val), x.whole → u.covers t v = true → decT t x = some v →
    ∃ w, decT u x = some w ∧ u.rel t v w
  | .prim k b, t, x, v, hx, hc, hv => by
    have any : k = .any → b.tags = [] → ∃ w, decT (.prim k b) x = some w ∧ (Ty.prim k b).rel t v w := by
      rintro rfl hb
      refine ⟨.octets x.raw, by simp [decT, decPrimT, hb], ?_⟩
      rw [Ty.rel]
      exact .inr ⟨rfl, hb, x.raw, rfl, decT_whole t x v hx hv⟩
    cases t with
    | prim k' a =>
      simp only [Ty.covers, Bool.or_eq_true, Bool.and_eq_true, beq_iff_eq, List.isEmpty_iff] at hc
      rcases hc with ⟨⟨hk, ht⟩, hs⟩ | ⟨hk, hb⟩
      · subst hk
        refine ⟨v, ?_, by rw [Ty.rel]; exact .inl ⟨rfl, ht⟩⟩
        by_cases hk : k = .any
        · simp only [decT] at hv ⊢
          rw [← decPrimT_bare k a b x ht hk, hv]
        · simp only [decT, decPrimT, ← unwrap_tags _ _ x ht] at hv ⊢
          simp only [hk, beq_iff_eq, if_false] at hv ⊢
          split at hv
          · simp at hv
          · split at hv
            · simp at hv
            · split at hv
              · simp at hv
              · rename_i w h2
                split at hv
                · simp only [Option.some.injEq] at hv
                  subst hv
                  simp [*, hs.resolve_left hk]
                · simp at hv
      · exact any hk hb
    | _ =>
      simp only [Ty.covers, Bool.and_eq_true, beq_iff_eq, List.isEmpty_iff] at hc
      exact any hc.1 hc.2
  | .seq s b ds, t, x, v, hx, hc, hv => by
    cases t <;> try (simp [Ty.covers] at hc; done)
    rename_i s' a cs
    cases v <;> try (simp [Ty.covers] at hc; done)
    rename_i vs
    simp only [Ty.covers, Bool.and_eq_true, beq_iff_eq] at hc
    obtain ⟨⟨⟨rfl, ht⟩, hs⟩, hc⟩ := hc
    simp only [decT] at hv
    cases hi : innerItems a x with
    | none => simp [hi] at hv
    | some xs =>
      have hi' : innerItems b x = some xs := by
        rw [← hi, innerItems_bare a b x ht]
      have hwh := innerItems_whole a x xs hi
      have hspec : ∀ ws, (!ds.noOpen || b.spec.ok (.mapping (presentNames ds ws).length (presentNames ds ws))) = true := by
        intro ws
        rw [conj_ok]
        simp only [Bool.or_eq_true, List.isEmpty_iff] at hs ⊢
        exact hs.imp id (fun h => by simp [h])
      simp only [hi] at hv
      cases s with
      | true =>
        simp only [if_true] at hv hc
        split at hv
        · simp at hv
        · rename_i us hu
          split at hv
          · simp only [Option.some.injEq, Val.record.injEq] at hv
            subst hv
            split at hu
            · rename_i hall
              obtain ⟨ws, hws, hr⟩ := sub_decS ds cs xs us hwh hc hu
              refine ⟨.record ws, ?_, by rw [Ty.rel]; exact hr⟩
              have hall' : xs.all ds.matches = true := by
                rw [← hall]
                exact List.all_congr rfl (fun y => subSet_matches y ds cs hc)
              simp only [decT, hi', if_true, hall', hws, hspec]
            · simp at hu
          · simp at hv
      | false =>
        simp only [Bool.false_eq_true, if_false] at hv hc
        split at hv
        · simp at hv
        · rename_i us hu
          split at hv
          · simp only [Option.some.injEq, Val.record.injEq] at hv
            subst hv
            obtain ⟨ws, hws, hr⟩ := covers_decC ds cs xs us hwh hc hu
            refine ⟨.record ws, ?_, by rw [Ty.rel]; exact hr⟩
            simp only [decT, hi', Bool.false_eq_true, if_false, hws, hspec, if_true]
          · simp at hv
  | .of s b u, t, x, v, hx, hc, hv => by
    cases t <;> try (simp [Ty.covers] at hc; done)
    rename_i s' a t
    cases v <;> try (simp [Ty.covers] at hc; done)
    rename_i vs
    simp only [Ty.covers, Bool.and_eq_true, beq_iff_eq, List.all_eq_true] at hc
    obtain ⟨⟨rfl, ht⟩, hc⟩ := hc
    simp only [decT] at hv
    cases hi : innerItems a x with
    | none => simp [hi] at hv
    | some xs =>
      have hi' : innerItems b x = some xs := by
        rw [← hi, innerItems_bare a b x ht]
      have hwh := innerItems_whole a x xs hi
      simp only [hi] at hv
      cases hm : mapOpt (decT t) xs with
      | none => simp [hm] at hv
      | some us =>
        simp only [hm, Option.some.injEq, Val.list.injEq] at hv
        subst hv
        rw [toList_ofList] at hc
        obtain ⟨ws, hws, hl, hz⟩ := mapOpt_rel xs us
          (fun y hy v hv hd => covers_dec u t y v (hwh y hy) (hc v hv) hd) hm
        refine ⟨.list (.ofList ws), by simp [decT, hi', hws], ?_⟩
        rw [Ty.rel]
        simpa [toList_ofList, length_ofList] using ⟨hl, fun a b h => hz (a, b) h⟩
  | .choice b ds, t, x, v, hx, hc, hv => by
    by_cases hch : ∃ a cs, t = .choice a cs
    · obtain ⟨a, cs, rfl⟩ := hch
      cases v <;> try (simp [Ty.covers] at hc; done)
      rename_i i v
      simp only [Ty.covers, Bool.and_eq_true, beq_iff_eq] at hc
      obtain ⟨hp, ht, hc⟩ := hc
      have key : ∀ y : TLV, y.whole → decAlt cs 0 y = some (.alt i v) →
          ∃ j w, decAlt ds 0 y = some (.alt j w) ∧ (Ty.choice b ds).rel (.choice a cs) (.alt i v) (.alt j w) := by
        intro y hy hd
        obtain ⟨i', f, t', v', he, hg, hm, hd'⟩ := decAlt_get cs 0 y _ hd
        simp only [Nat.zero_add, Val.alt.injEq] at he
        obtain ⟨rfl, rfl⟩ := he
        rw [hg] at hc
        obtain ⟨j, g, u, w, hj, htu, hw, hr⟩ := covers_decA ds t' y v hy hc hd'
        refine ⟨j, w, ?_, ?_⟩
        · have := decAlt_pick ds 0 j g u y w hp hj (decT_matches u y w htu hw) hw
          simpa using this
        · rw [Ty.rel]
          exact ⟨_, hg, hr⟩
      simp only [decT] at hv
      cases hts : a.tags with
      | nil =>
        simp only [hts] at hv
        obtain ⟨j, w, hd, hr⟩ := key x hx hv
        exact ⟨_, by simp only [decT, (bare_nil _ _ ht).1 hts]; exact hd, hr⟩
      | cons t0 ts0 =>
        simp only [hts] at hv
        rw [← hts] at hv
        cases hu : unwrap a.tags.reverse x with
        | none => simp [hu] at hv
        | some y =>
          simp only [hu] at hv
          cases hz : readTLV y.content with
          | none => simp [hz] at hv
          | some zr =>
            obtain ⟨z, r⟩ := zr
            simp only [hz] at hv
            obtain ⟨j, w, hd, hr⟩ := key z (readTLV_raw _ _ _ hz) hv
            refine ⟨_, ?_, hr⟩
            cases hbt : b.tags with
            | nil => rw [(bare_nil _ _ ht).2 hbt] at hts; simp at hts
            | cons t1 ts1 =>
              simp only [decT, hbt]
              rw [← hbt, ← unwrap_tags _ _ x ht]
              simp only [hu, hz, hd]
    · have hc' : ds.pairOk = true ∧ b.tags = [] ∧ ds.coversAlt t v = true := by
        cases t with
        | choice a cs => exact absurd ⟨a, cs, rfl⟩ hch
        | _ =>
          simp only [Ty.covers, Bool.and_eq_true, List.isEmpty_iff] at hc
          exact hc
      obtain ⟨hp, hb, hc⟩ := hc'
      obtain ⟨j, g, u, w, hj, htu, hw, hr⟩ := covers_decA ds t x v hx hc hv
      refine ⟨.alt j w, ?_, ?_⟩
      · have := decAlt_pick ds 0 j g u x w hp hj (decT_matches u x w htu hw) hw
        simp only [decT, hb]
        simpa using this
      · cases t with
        | choice a cs => exact absurd ⟨a, cs, rfl⟩ hch
        | _ => rw [Ty.rel]; exact hr; simp
  | .bad _, _, _, _, _, hc, _ => by simp [Ty.covers] at hc
theorem covers_decC : ∀ (ds cs : Comps) (xs : List TLV) (vs : Vals), (∀ x ∈ xs, x.whole) → ds.covers cs vs = true →
    decComps cs xs = some vs → ∃ ws, decComps ds xs = some ws ∧ ds.rel cs vs ws
  | .nil, .nil, xs, vs, _, _, hv => by
    cases xs with
    | nil => simp only [decComps, Option.some.injEq] at hv; subst hv; exact ⟨.nil, rfl, trivial⟩
    | cons x xs => simp [decComps] at hv
  | .nil, .cons .., _, _, _, hc, _ => by simp [Comps.covers] at hc
  | .cons g u ds, .nil, xs, vs, hx, hc, hv => by
    simp only [Comps.covers, Bool.and_eq_true, Bool.not_eq_true'] at hc
    cases xs with
    | cons x xs => simp [decComps] at hv
    | nil =>
      obtain ⟨ws, hws, hr⟩ := covers_decC ds .nil [] vs hx hc.2 hv
      exact ⟨.cons g.mode.fresh ws, by simp [decComps, fresh_missing _ hc.1, hws], by rw [Comps.rel]; exact ⟨rfl, hr⟩⟩
  | .cons g u ds, .cons f t cs, xs, vs, hx, hc, hv => by
    simp only [Comps.covers] at hc
    by_cases hp : pairs g f ds cs = true
    · rw [if_pos hp] at hc
      cases vs with
      | nil => simp at hc
      | cons v vs =>
        simp only [Bool.and_eq_true] at hc
        obtain ⟨⟨hd, hcv⟩, hcs⟩ := hc
        have hreads : g.mode.reads f.mode = true := by
          simp only [decides, Bool.and_eq_true] at hd; exact hd.1
        cases xs with
        | nil =>
          simp only [decComps] at hv
          split at hv
          · rename_i v' vs' hm hr
            simp only [Option.some.injEq, Vals.cons.injEq] at hv
            obtain ⟨rfl, rfl⟩ := hv
            obtain ⟨hg, hm'⟩ := reads_missing g.mode f.mode v' hreads hm
            obtain ⟨ws, hws, hrel⟩ := covers_decC ds cs [] vs' hx hcs hr
            refine ⟨.cons v' ws, by simp [decComps, hg, hws], ?_⟩
            rw [Comps.rel, if_pos hp]
            refine ⟨?_, hrel⟩
            rcases hm' with h | h
            · exact .inl ⟨h.1, h.1⟩
            · exact .inr (.inl ⟨h.1, h.2, rfl⟩)
          · simp at hv
        | cons x xs =>
          simp only [decComps] at hv
          split at hv
          · split at hv
            · rename_i v' vs' hv' hr
              simp only [Option.some.injEq, Vals.cons.injEq] at hv
              obtain ⟨rfl, rfl⟩ := hv
              have hcv' : u.covers t v' = true := by
                simp only [Bool.or_eq_true, Bool.and_eq_true, beq_iff_eq] at hcv
                rcases hcv with ⟨_, h⟩ | h
                · subst h
                  have := decT_admits t x _ hv'
                  cases t with
                  | prim k a => cases k <;> simp [Ty.admits, primLegal, primShape] at this
                  | _ => simp [Ty.admits] at this
                · exact h
              obtain ⟨w, hw, hrel⟩ := covers_dec u t x v' (hx x (by simp)) hcv' hv'
              obtain ⟨ws, hws, hrels⟩ := covers_decC ds cs xs vs' (fun y hy => hx y (by simp [hy])) hcs hr
              refine ⟨.cons w ws, ?_, by rw [Comps.rel, if_pos hp]; exact ⟨.inr (.inr hrel), hrels⟩⟩
              simp only [decComps, takes g u ds f t x w hd hw, if_true, hw, hws]
            · simp at hv
          · rename_i hn
            simp only [Bool.or_eq_true, not_or, Bool.not_eq_true] at hn
            split at hv
            · rename_i v' vs' hm hr
              simp only [Option.some.injEq, Vals.cons.injEq] at hv
              obtain ⟨rfl, rfl⟩ := hv
              obtain ⟨hg, hm'⟩ := reads_missing g.mode f.mode v' hreads hm
              obtain ⟨ws, hws, hrel⟩ := covers_decC ds cs (x :: xs) vs' hx hcs hr
              refine ⟨.cons v' ws, ?_, ?_⟩
              · simp only [decComps, leaves g u ds f t x xs ws hd hn.1.1 hn.1.2 hws, Bool.false_eq_true, if_false, hg, hws]
              · rw [Comps.rel, if_pos hp]
                refine ⟨?_, hrel⟩
                rcases hm' with h | h
                · exact .inl ⟨h.1, h.1⟩
                · exact .inr (.inl ⟨h.1, h.2, rfl⟩)
            · simp at hv
    · rw [if_neg hp] at hc
      simp only [Bool.and_eq_true, Bool.not_eq_true'] at hc
      obtain ⟨⟨⟨hg, hs⟩, hta⟩, hc⟩ := hc
      obtain ⟨ws, hws, hrel⟩ := covers_decC ds (.cons f t cs) xs vs hx hc hv
      have hvs : ∃ v vs', vs = .cons v vs' := by
        cases vs with
        | nil =>
          cases xs <;> simp only [decComps] at hv
          · split at hv <;> simp at hv
          · split at hv <;> split at hv <;> simp at hv
        | cons v vs' => exact ⟨v, vs', rfl⟩
      obtain ⟨v, vs', rfl⟩ := hvs
      refine ⟨.cons g.mode.fresh ws, ?_, by rw [Comps.rel, if_neg hp]; exact ⟨rfl, hrel⟩⟩
      cases xs with
      | nil => simp [decComps, fresh_missing _ hg, hws]
      | cons x xs =>
        obtain ⟨h1, h2⟩ := skippable_skips u ds x xs ws hs hws
        simp [decComps, hg, h1, h2, fresh_missing _ hg, hws]
theorem sub_decS : ∀ (ds cs : Comps) (xs : List TLV) (vs : Vals), (∀ x ∈ xs, x.whole) → ds.subSet cs = true →
    decSet cs xs = some vs → ∃ ws, decSet ds xs = some ws ∧ ds.rel cs vs ws
  | .nil, .nil, xs, vs, _, _, hv => by
    simp only [decSet, Option.some.injEq] at hv; subst hv; exact ⟨.nil, rfl, trivial⟩
  | .nil, .cons .., _, _, _, hc, _ => by simp [Comps.subSet] at hc
  | .cons .., .nil, _, _, _, hc, _ => by simp [Comps.subSet] at hc
  | .cons g u ds, .cons f t cs, xs, vs, hx, hc, hv => by
    have hlen := subSet_length _ _ hc
    simp only [Comps.length, Nat.add_right_cancel_iff] at hlen
    simp only [Comps.subSet, Bool.and_eq_true] at hc
    obtain ⟨⟨⟨⟨⟨hreads, hsf⟩, hta⟩, had⟩, hsub⟩, hcs⟩ := hc
    have hfil : xs.filter u.matches = xs.filter t.matches :=
      List.filter_congr (fun y _ => sameFirst_matches u t y hsf)
    simp only [decSet] at hv
    cases hm : mapOpt (decT t) (xs.filter t.matches) with
    | none => simp [hm] at hv
    | some us =>
      cases hr : decSet cs xs with
      | none => simp [hm, hr] at hv
      | some vs' =>
        simp only [hm, hr] at hv
        obtain ⟨ws, hws, hrel⟩ := sub_decS ds cs xs vs' hx hcs hr
        obtain ⟨us', hus, hl, hz⟩ := mapOpt_rel (t := t) (u := u) (xs.filter t.matches) us
          (fun y hy v _ hd => covers_dec u t y v (hx y (List.mem_filter.1 hy).1)
            (covers_of_sub u t v hsub (decT_admits t y v hd)) hd) hm
        split at hv
        · rename_i v hlast
          simp only [Option.some.injEq] at hv
          subst hv
          obtain ⟨w, hw, hmem⟩ := getLast?_zip us us' v hl hlast
          refine ⟨.cons w ws, by simp [decSet, hfil, hus, hws, hw], ?_⟩
          rw [Comps.rel, if_pos (pairs_of_length g f ds cs hlen)]
          exact ⟨.inr (.inr (hz _ hmem)), hrel⟩
        · rename_i hlast
          split at hv
          · rename_i v hmiss
            simp only [Option.some.injEq] at hv
            subst hv
            obtain ⟨hg, hm'⟩ := reads_missing g.mode f.mode v hreads hmiss
            have hn : us' = [] := by
              have : us = [] := by simpa using hlast
              subst this
              exact List.length_eq_zero_iff.1 hl.symm
            subst hn
            refine ⟨.cons v ws, by simp [decSet, hfil, hus, hws, hg], ?_⟩
            rw [Comps.rel, if_pos (pairs_of_length g f ds cs hlen)]
            refine ⟨?_, hrel⟩
            rcases hm' with h | h
            · exact .inl ⟨h.1, h.1⟩
            · exact .inr (.inl ⟨h.1, h.2, rfl⟩)
          · simp at hv
theorem covers_decA : ∀ (ds : Comps) (t : Ty) (x : TLV) (v : Val), x.whole → ds.coversAlt t v = true →
    decT t x = some v → ∃ j g u w, ds.get? j = some (g, u) ∧ u.taggedAny = false ∧ decT u x = some w ∧ ds.relAlt j t v w
  | .nil, _, _, _, _, hc, _ => by simp [Comps.coversAlt] at hc
  | .cons g u ds, t, x, v, hx, hc, hv => by
    simp only [Comps.coversAlt, Bool.or_eq_true, Bool.and_eq_true, Bool.not_eq_true'] at hc
    rcases hc with hc | hc
    · obtain ⟨w, hw, hr⟩ := covers_dec u t x v hx hc.2 hv
      exact ⟨0, g, u, w, rfl, hc.1, hw, by rw [Comps.relAlt]; exact hr⟩
    · obtain ⟨j, g', u', w, hj, hta, hw, hr⟩ := covers_decA ds t x v hx hc hv
      exact ⟨j + 1, g', u', w, hj, hta, hw, by rw [Comps.relAlt]; exact hr⟩
end

/-- A newer schema reads what an older one reads, as long as it covers the value. -/
theorem covers_decode (u t : Ty) (b r : Bytes) (v : Val) (h : decode t b = some (v, r)) (hc : u.covers t v = true) :
    ∃ w, decode u b = some (w, r) ∧ u.rel t v w := by
  simp only [decode] at h ⊢
  split at h
  · simp at h
  · rename_i x r' hx
    split at h
    · simp at h
    · rename_i v' hv
      simp only [Option.some.injEq, Prod.mk.injEq] at h
      obtain ⟨rfl, rfl⟩ := h
      obtain ⟨w, hw, hr⟩ := covers_dec u t x v' (readTLV_raw _ _ _ hx) hc hv
      exact ⟨w, by simp [hw], hr⟩

/-- A newer schema that has a counterpart for everything in the older one reads all it reads. -/
theorem sub_decode (u t : Ty) (b r : Bytes) (v : Val) (h : decode t b = some (v, r)) (hs : u.sub t = true) :
    ∃ w, decode u b = some (w, r) ∧ u.rel t v w := by
  refine covers_decode u t b r v h (covers_of_sub u t v hs ?_)
  simp only [decode] at h
  split at h
  · simp at h
  · split at h
    · simp at h
    · rename_i w hw
      simp only [Option.some.injEq, Prod.mk.injEq] at h
      rw [← h.1]
      exact decT_admits t _ w hw

end Asn1
end Verif
