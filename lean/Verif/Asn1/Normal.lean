import Verif.Spec.Normal
import Verif.Asn1.Times
import Verif.Asn1.Ber
import Verif.Asn1.BerCodec
import Verif.Asn1.BasicSound

/-!
# What was read and can be written is legal
-/

namespace Verif
namespace Asn1

mutual
/-- No ANY is constrained. -/
def Ty.anyFree : Ty → Bool
  | .prim k a => !(k == .any) || decide (a.spec = .inter .nil)
  | .seq _ _ cs => cs.anyFree
  | .of _ _ t => t.anyFree
  | .choice _ cs => cs.anyFree
  | .bad _ => true
def Comps.anyFree : Comps → Bool
  | .nil => true
  | .cons _ t cs => t.anyFree && cs.anyFree
end

theorem mapOpt_each {α β : Type} {f : α → Option β} : ∀ {l : List α} {ys : List β}, mapOpt f l = some ys →
    ∀ a ∈ l, ∃ y, f a = some y
  | [], _, _, a, ha => by simp at ha
  | b :: l, ys, h, a, ha => by
    simp only [mapOpt] at h
    cases hb : f b <;> simp only [hb, reduceCtorEq] at h
    cases hl : mapOpt f l <;> simp only [hl, reduceCtorEq] at h
    rcases List.mem_cons.1 ha with rfl | ha
    · exact ⟨_, hb⟩
    · exact mapOpt_each hl a ha

theorem mapOpt_from {α β : Type} {f : α → Option β} : ∀ {l : List α} {ys : List β}, mapOpt f l = some ys →
    ∀ y ∈ ys, ∃ a ∈ l, f a = some y
  | [], ys, h, y, hy => by simp only [mapOpt, Option.some.injEq] at h; subst h; simp at hy
  | b :: l, ys, h, y, hy => by
    simp only [mapOpt] at h
    cases hb : f b <;> simp only [hb, reduceCtorEq] at h
    cases hl : mapOpt f l <;> simp only [hl, reduceCtorEq, Option.some.injEq] at h
    subst h
    rcases List.mem_cons.1 hy with rfl | hy
    · exact ⟨b, by simp, hb⟩
    · obtain ⟨a, ha, h⟩ := mapOpt_from hl y hy
      exact ⟨a, by simp [ha], h⟩

theorem admits_absent (t : Ty) : t.admits .absent = false := by
  cases t with
  | prim k a => cases k <;> simp [Ty.admits, primShape, primLegal]
  | _ => simp [Ty.admits]

/-! ## Legal -/

theorem prim_text (k : Prim) (a : Attrs) (v : Val) (hf : (Ty.prim k a).anyFree = true) (h : (Ty.prim k a).admits v = true)
    (hs : (Ty.prim k a).single v = true) : (Ty.prim k a).asText.valid v = true := by
  by_cases hk : k = .any
  · subst hk
    cases v <;> simp only [Ty.admits, Bool.false_eq_true] at h
    simp only [Ty.anyFree, beq_self_eq_true, Bool.not_true, Bool.false_or, decide_eq_true_eq] at hf
    simp only [Ty.single] at hs
    simp only [Ty.asText, Prim.asText, Ty.valid, primLegal, hf, Bool.true_and, Bool.and_eq_true]
    refine ⟨by simp [Constraint.ok, Constraints.all], ?_⟩
    split
    · rename_i h2 h3
      simp only [Val.octets.injEq] at h3
      subst h3
      simpa [h2] using hs
    · rfl
  · have h' : (primShape k v && a.spec.ok (.simple v)) = true := by
      cases k <;> first | exact absurd rfl hk | exact h
    simp only [Bool.and_eq_true] at h'
    have hl : primLegal k.asText v = true := by
      cases k <;> cases v <;> simp_all [primShape, primLegal, Prim.asText]
    simp only [Ty.asText, Ty.valid, hl, h'.2, Bool.true_and]
    split
    · rename_i h2 _ _
      cases k <;> simp_all [Prim.asText]
    · rfl

mutual
/-- A value of the right shape that can be encoded is legal but for its times. -/
theorem text_of_admits : ∀ (t : Ty) (ine : Bool) (v : Val) (b : Bytes), t.anyFree = true → t.admits v = true →
    t.single v = true → enc ine t v = some b → t.asText.valid v = true
  | .prim k a, _, v, _, hf, ha, hs, _ => prim_text k a v hf ha hs
  | .bad _, _, v, _, _, ha, _, _ => by cases v <;> simp [Ty.admits] at ha
  | .seq s a cs, ine, v, b, hf, ha, hs, he => by
    cases v <;> simp only [Ty.admits, Bool.false_eq_true] at ha
    rename_i vs
    simp only [Bool.and_eq_true] at ha
    simp only [Ty.anyFree] at hf
    simp only [Ty.single] at hs
    simp only [enc] at he
    split at he
    · rename_i hok
      cases hc : encComps cs vs <;> simp only [hc, reduceCtorEq] at he
      simp only [Ty.asText, Ty.valid, Comps.asText_names, hok, Bool.and_true]
      exact text_of_admitsC cs vs _ hf ha.1 hs hc
    · simp at he
  | .of s a t, ine, v, b, hf, ha, hs, he => by
    cases v <;> simp only [Ty.admits, Bool.false_eq_true] at ha
    rename_i vs
    simp only [Ty.anyFree] at hf
    simp only [Ty.single, Vals.every_iff, List.all_eq_true] at hs
    simp only [Vals.every_iff, List.all_eq_true] at ha
    simp only [enc] at he
    split at he
    · rename_i hok
      split at he
      · simp at he
      · rename_i ps hps
        simp only [Ty.asText, Ty.valid, hok, Bool.and_true, Vals.every_iff, List.all_eq_true]
        intro w hw
        obtain ⟨y, hy⟩ := mapOpt_each hps w hw
        simp only [Option.map_eq_some_iff] at hy
        obtain ⟨c, hc, _⟩ := hy
        exact text_of_admits t ine w c hf (ha w hw) (hs w hw) hc
    · simp at he
  | .choice a cs, ine, v, b, hf, ha, hs, he => by
    cases v <;> simp only [Ty.admits, Bool.false_eq_true] at ha
    rename_i i w
    simp only [Ty.anyFree] at hf
    simp only [Ty.single] at hs
    simp only [enc] at he
    cases hc : encAlt ine cs i w <;> simp only [hc, reduceCtorEq] at he
    simp only [Ty.asText, Ty.valid]
    exact text_of_admitsA cs ine i w _ hf ha hs hc
theorem text_of_admitsC : ∀ (cs : Comps) (vs : Vals) (ps : List (TagSet × Bytes)), cs.anyFree = true → cs.admits vs = true →
    cs.single vs = true → encComps cs vs = some ps → cs.asText.valid vs = true
  | .nil, vs, _, _, ha, _, _ => by cases vs <;> simp_all [Comps.admits, Comps.asText, Comps.valid]
  | .cons f t cs, .nil, _, _, ha, _, _ => by simp [Comps.admits] at ha
  | .cons f t cs, .cons v vs, ps, hf, ha, hs, he => by
    simp only [Comps.anyFree, Bool.and_eq_true] at hf
    simp only [Comps.single, Bool.and_eq_true, Bool.or_eq_true, decide_eq_true_eq] at hs
    simp only [Comps.admits, Bool.and_eq_true] at ha
    simp only [encComps] at he
    cases hc : encComps cs vs <;> simp only [hc, reduceCtorEq] at he
    rename_i qs
    have hrest := text_of_admitsC cs vs qs hf.2 ha.2 hs.2 hc
    simp only [Comps.asText, Comps.valid, hrest, Bool.and_true]
    have key : t.admits v = true → v ≠ .absent → f.mode ≠ .dflt v → t.asText.valid v = true := by
      intro h1 h2 h3
      have he' : ∃ c, enc f.mode.isOpt t v = some c := by
        split at he
        · exact absurd rfl h2
        · exact absurd rfl h2
        · exact absurd rfl h2
        · rw [if_neg h3] at he
          split at he
          · simp at he
          · exact ⟨_, by assumption⟩
      obtain ⟨c, hc'⟩ := he'
      exact text_of_admits t _ v c hf.1 h1 (hs.1.resolve_left h3) hc'
    have ha1 := ha.1
    cases hm : f.mode with
    | req =>
      simp only [hm] at ha1 ⊢
      refine key ha1 ?_ (by simp [hm])
      rintro rfl
      simp [admits_absent] at ha1
    | opt =>
      simp only [hm, Bool.or_eq_true, beq_iff_eq] at ha1 ⊢
      by_cases h0 : v = .absent
      · exact .inl h0
      · exact .inr (key (ha1.resolve_left h0) h0 (by simp [hm]))
    | dflt d =>
      simp only [hm, Bool.or_eq_true, beq_iff_eq] at ha1 ⊢
      by_cases h0 : v = d
      · exact .inl h0
      · refine .inr (key (ha1.resolve_left h0) ?_ (by simp only [hm, ne_eq, Mode.dflt.injEq]; exact fun h => h0 h.symm))
        rintro rfl
        have := ha1.resolve_left h0
        simp [admits_absent] at this
theorem text_of_admitsA : ∀ (cs : Comps) (ine : Bool) (i : Nat) (v : Val) (b : Bytes), cs.anyFree = true →
    cs.admitsAlt i v = true → cs.singleAlt i v = true → encAlt ine cs i v = some b → cs.asText.validAlt i v = true
  | .nil, _, _, _, _, _, ha, _, _ => by simp [Comps.admitsAlt] at ha
  | .cons f t cs, ine, 0, v, b, hf, ha, hs, he => by
    simp only [Comps.anyFree, Bool.and_eq_true] at hf
    simp only [Comps.admitsAlt] at ha
    simp only [Comps.singleAlt] at hs
    simp only [encAlt] at he
    simp only [Comps.asText, Comps.validAlt]
    exact text_of_admits t ine v b hf.1 ha hs he
  | .cons f t cs, ine, i + 1, v, b, hf, ha, hs, he => by
    simp only [Comps.anyFree, Bool.and_eq_true] at hf
    simp only [Comps.admitsAlt] at ha
    simp only [Comps.singleAlt] at hs
    simp only [encAlt] at he
    simp only [Comps.asText, Comps.validAlt]
    exact text_of_admitsA cs ine i v b hf.2 ha hs he
end

mutual
/-- A value of the right shape that the BER encoder writes is legal but for its times. -/
theorem btext_of_admits : ∀ (t : Ty) (v : Val) (b : Bytes), t.anyFree = true → t.admits v = true →
    t.single v = true → benc t v = some b → t.asText.valid v = true
  | .prim k a, v, _, hf, ha, hs, _ => prim_text k a v hf ha hs
  | .bad _, v, _, _, ha, _, _ => by cases v <;> simp [Ty.admits] at ha
  | .seq s a cs, v, b, hf, ha, hs, he => by
    cases v <;> simp only [Ty.admits, Bool.false_eq_true] at ha
    rename_i vs
    simp only [Bool.and_eq_true] at ha
    simp only [Ty.anyFree] at hf
    simp only [Ty.single] at hs
    simp only [benc] at he
    split at he
    · rename_i hok
      cases hc : bencComps cs vs <;> simp only [hc, reduceCtorEq] at he
      simp only [Ty.asText, Ty.valid, Comps.asText_names, hok, Bool.and_true]
      exact btext_of_admitsC cs vs _ hf ha.1 hs hc
    · simp at he
  | .of s a t, v, b, hf, ha, hs, he => by
    cases v <;> simp only [Ty.admits, Bool.false_eq_true] at ha
    rename_i vs
    simp only [Ty.anyFree] at hf
    simp only [Ty.single, Vals.every_iff, List.all_eq_true] at hs
    simp only [Vals.every_iff, List.all_eq_true] at ha
    simp only [benc] at he
    split at he
    · rename_i hok
      split at he
      · simp at he
      · rename_i ps hps
        simp only [Ty.asText, Ty.valid, hok, Bool.and_true, Vals.every_iff, List.all_eq_true]
        intro w hw
        obtain ⟨c, hc⟩ := mapOpt_each hps w hw
        exact btext_of_admits t w c hf (ha w hw) (hs w hw) hc
    · simp at he
  | .choice a cs, v, b, hf, ha, hs, he => by
    cases v <;> simp only [Ty.admits, Bool.false_eq_true] at ha
    rename_i i w
    simp only [Ty.anyFree] at hf
    simp only [Ty.single] at hs
    simp only [benc] at he
    cases hc : bencAlt cs i w <;> simp only [hc, reduceCtorEq] at he
    simp only [Ty.asText, Ty.valid]
    exact btext_of_admitsA cs i w _ hf ha hs hc
theorem btext_of_admitsC : ∀ (cs : Comps) (vs : Vals) (ps : List Bytes), cs.anyFree = true → cs.admits vs = true →
    cs.single vs = true → bencComps cs vs = some ps → cs.asText.valid vs = true
  | .nil, vs, _, _, ha, _, _ => by cases vs <;> simp_all [Comps.admits, Comps.asText, Comps.valid]
  | .cons f t cs, .nil, _, _, ha, _, _ => by simp [Comps.admits] at ha
  | .cons f t cs, .cons v vs, ps, hf, ha, hs, he => by
    simp only [Comps.anyFree, Bool.and_eq_true] at hf
    simp only [Comps.single, Bool.and_eq_true, Bool.or_eq_true, decide_eq_true_eq] at hs
    simp only [Comps.admits, Bool.and_eq_true] at ha
    simp only [bencComps] at he
    cases hc : bencComps cs vs <;> simp only [hc, reduceCtorEq] at he
    rename_i qs
    have hrest := btext_of_admitsC cs vs qs hf.2 ha.2 hs.2 hc
    simp only [Comps.asText, Comps.valid, hrest, Bool.and_true]
    have key : t.admits v = true → v ≠ .absent → f.mode ≠ .dflt v → t.asText.valid v = true := by
      intro h1 h2 h3
      have he' : ∃ c, benc t v = some c := by
        split at he
        · exact absurd rfl h2
        · exact absurd rfl h2
        · exact absurd rfl h2
        · rw [if_neg h3] at he
          split at he
          · simp at he
          · exact ⟨_, by assumption⟩
      obtain ⟨c, hc'⟩ := he'
      exact btext_of_admits t v c hf.1 h1 (hs.1.resolve_left h3) hc'
    have ha1 := ha.1
    cases hm : f.mode with
    | req =>
      simp only [hm] at ha1 ⊢
      refine key ha1 ?_ (by simp [hm])
      rintro rfl
      simp [admits_absent] at ha1
    | opt =>
      simp only [hm, Bool.or_eq_true, beq_iff_eq] at ha1 ⊢
      by_cases h0 : v = .absent
      · exact .inl h0
      · exact .inr (key (ha1.resolve_left h0) h0 (by simp [hm]))
    | dflt d =>
      simp only [hm, Bool.or_eq_true, beq_iff_eq] at ha1 ⊢
      by_cases h0 : v = d
      · exact .inl h0
      · refine .inr (key (ha1.resolve_left h0) ?_ (by simp only [hm, ne_eq, Mode.dflt.injEq]; exact fun h => h0 h.symm))
        rintro rfl
        have := ha1.resolve_left h0
        simp [admits_absent] at this
theorem btext_of_admitsA : ∀ (cs : Comps) (i : Nat) (v : Val) (b : Bytes), cs.anyFree = true →
    cs.admitsAlt i v = true → cs.singleAlt i v = true → bencAlt cs i v = some b → cs.asText.validAlt i v = true
  | .nil, _, _, _, _, ha, _, _ => by simp [Comps.admitsAlt] at ha
  | .cons f t cs, 0, v, b, hf, ha, hs, he => by
    simp only [Comps.anyFree, Bool.and_eq_true] at hf
    simp only [Comps.admitsAlt] at ha
    simp only [Comps.singleAlt] at hs
    simp only [bencAlt] at he
    simp only [Comps.asText, Comps.validAlt]
    exact btext_of_admits t v b hf.1 ha hs he
  | .cons f t cs, i + 1, v, b, hf, ha, hs, he => by
    simp only [Comps.anyFree, Bool.and_eq_true] at hf
    simp only [Comps.admitsAlt] at ha
    simp only [Comps.singleAlt] at hs
    simp only [bencAlt] at he
    simp only [Comps.asText, Comps.validAlt]
    exact btext_of_admitsA cs i v b hf.2 ha hs he
end

/-! ## With times that are written as they are -/

theorem plainFraction_oneDot (s : List Char) (h : plainFraction s = true) : oneDot s = true := by
  have h1 : (s.takeWhile (· != '.')).count '.' = 0 := by
    rw [List.count_eq_zero]
    intro hm
    have := List.all_eq_true.1 (List.all_takeWhile (p := (· != '.')) (l := s)) _ hm
    simp at this
  have h2 := List.takeWhile_append_dropWhile (p := (· != '.')) (l := s)
  simp only [plainFraction] at h
  simp only [oneDot, decide_eq_true_eq]
  rw [← h2, List.count_append, h1]
  split at h
  · rename_i h3; rw [h3]; simp
  · rename_i c f h3
    rw [h3]
    simp only [Bool.and_eq_true, Bool.not_eq_true', List.contains_eq_mem, decide_eq_false_iff_not] at h
    have : f.count '.' = 0 := List.count_eq_zero.2 h.1.1
    rw [List.count_cons, this]
    split <;> simp

/-- A time that is written, and written as it is. -/
def asWritten (k : Prim) (s : List Char) : Bool := writable k s && plainFraction s && oneDot s

theorem prim_valid (k : Prim) (a : Attrs) (v : Val) (h : (Ty.prim k a).asText.valid v = true)
    (ht : (Ty.prim k a).everyTime asWritten v = true) : (Ty.prim k a).valid v = true := by
  have key : ∀ lo hi s, writableTime lo hi s = true → plainFraction s = true → oneDot s = true →
      s.all (inRepertoire .ascii) = true → legalTime lo hi s = true := by
    intro lo hi s h1 h2 h4 h3
    have h5 := (rewrittenTime_eq s h4).2 h2
    simp only [writableTime, h5, Bool.and_eq_true, decide_eq_true_eq, List.all_eq_true] at h1
    simp only [List.all_eq_true, inRepertoire, decide_eq_true_eq] at h3
    simp only [legalTime, Bool.and_eq_true, decide_eq_true_eq, List.all_eq_true]
    simp_all
  by_cases hk : k = .utcTime ∨ k = .generalizedTime
  · cases v
    case str s =>
      rcases hk with rfl | rfl
      all_goals
        simp only [Ty.asText, Prim.asText, Ty.valid, primLegal, Bool.and_eq_true] at h
        simp only [Ty.everyTime, Prim.everyTime, asWritten, writable, Bool.and_eq_true] at ht
        simp only [Ty.valid, primLegal, Bool.and_eq_true]
        exact ⟨⟨key _ _ s ht.1.1 ht.1.2 ht.2 h.1.1, h.1.2⟩, trivial⟩
    all_goals
      rcases hk with rfl | rfl <;> simp [Ty.asText, Prim.asText, Ty.valid, primLegal] at h
  · have : k.asText = k := by cases k <;> simp_all [Prim.asText]
    simpa only [Ty.asText, this] using h

mutual
theorem valid_of_text : ∀ (t : Ty) (v : Val), t.asText.valid v = true → t.everyTime asWritten v = true → t.valid v = true
  | .prim k a, v, h, ht => prim_valid k a v h ht
  | .bad _, v, h, _ => by cases v <;> simp [Ty.asText, Ty.valid] at h
  | .seq s a cs, v, h, ht => by
    cases v <;> simp only [Ty.asText, Ty.valid, Bool.false_eq_true] at h
    simp only [Comps.asText_names, Bool.and_eq_true] at h
    simp only [Ty.everyTime] at ht
    simp only [Ty.valid, h.2, Bool.and_true]
    exact valid_of_textC cs _ h.1 ht
  | .of s a t, v, h, ht => by
    cases v <;> simp only [Ty.asText, Ty.valid, Bool.false_eq_true] at h
    simp only [Bool.and_eq_true, Vals.every_iff, List.all_eq_true] at h
    simp only [Ty.everyTime, Vals.every_iff, List.all_eq_true] at ht
    simp only [Ty.valid, h.2, Bool.and_true, Vals.every_iff, List.all_eq_true]
    exact fun w hw => valid_of_text t w (h.1 w hw) (ht w hw)
  | .choice a cs, v, h, ht => by
    cases v <;> simp only [Ty.asText, Ty.valid, Bool.false_eq_true] at h
    simp only [Ty.everyTime] at ht
    simp only [Ty.valid]
    exact valid_of_textA cs _ _ h ht
theorem valid_of_textC : ∀ (cs : Comps) (vs : Vals), cs.asText.valid vs = true → cs.everyTime asWritten vs = true →
    cs.valid vs = true
  | .nil, vs, h, _ => h
  | .cons f t cs, .nil, h, _ => by simp [Comps.asText, Comps.valid] at h
  | .cons f t cs, .cons v vs, h, ht => by
    simp only [Comps.asText, Comps.valid, Bool.and_eq_true] at h
    simp only [Comps.everyTime, Bool.and_eq_true] at ht
    simp only [Comps.valid, Bool.and_eq_true]
    refine ⟨?_, valid_of_textC cs vs h.2 ht.2⟩
    have h1 := h.1
    have key : t.asText.valid v = true → t.valid v = true := fun h => valid_of_text t v h ht.1
    cases hm : f.mode <;> simp only [hm, Bool.or_eq_true] at h1 ⊢
    · exact key h1
    · exact h1.imp_right key
    · exact h1.imp_right key
theorem valid_of_textA : ∀ (cs : Comps) (i : Nat) (v : Val), cs.asText.validAlt i v = true → cs.everyTimeAlt asWritten i v = true →
    cs.validAlt i v = true
  | .nil, _, _, h, _ => by simp [Comps.asText, Comps.validAlt] at h
  | .cons f t cs, 0, v, h, ht => by
    simp only [Comps.asText, Comps.validAlt] at h
    simp only [Comps.everyTimeAlt] at ht
    exact valid_of_text t v h ht
  | .cons f t cs, i + 1, v, h, ht => by
    simp only [Comps.asText, Comps.validAlt] at h
    simp only [Comps.everyTimeAlt] at ht
    exact valid_of_textA cs i v h ht
end

mutual
theorem everyTime_and (p q r : Prim → List Char → Bool) (hr : ∀ k s, p k s = true → q k s = true → r k s = true) :
    ∀ (t : Ty) (v : Val), t.everyTime p v = true → t.everyTime q v = true → t.everyTime r v = true
  | .prim k a, v, h1, h2 => by
    cases k <;> cases v <;> simp only [Ty.everyTime, Prim.everyTime] at h1 h2 ⊢ <;> exact hr _ _ h1 h2
  | .bad _, v, _, _ => by cases v <;> rfl
  | .seq s a cs, v, h1, h2 => by
    cases v <;> simp only [Ty.everyTime] at h1 h2 ⊢
    exact everyTime_andC p q r hr cs _ h1 h2
  | .of s a t, v, h1, h2 => by
    cases v <;> simp only [Ty.everyTime, Vals.every_iff, List.all_eq_true] at h1 h2 ⊢
    exact fun w hw => everyTime_and p q r hr t w (h1 w hw) (h2 w hw)
  | .choice a cs, v, h1, h2 => by
    cases v <;> simp only [Ty.everyTime] at h1 h2 ⊢
    exact everyTime_andA p q r hr cs _ _ h1 h2
theorem everyTime_andC (p q r : Prim → List Char → Bool) (hr : ∀ k s, p k s = true → q k s = true → r k s = true) :
    ∀ (cs : Comps) (vs : Vals), cs.everyTime p vs = true → cs.everyTime q vs = true → cs.everyTime r vs = true
  | .nil, vs, _, _ => by cases vs <;> rfl
  | .cons f t cs, .nil, _, _ => rfl
  | .cons f t cs, .cons v vs, h1, h2 => by
    simp only [Comps.everyTime, Bool.and_eq_true] at h1 h2 ⊢
    exact ⟨everyTime_and p q r hr t v h1.1 h2.1, everyTime_andC p q r hr cs vs h1.2 h2.2⟩
theorem everyTime_andA (p q r : Prim → List Char → Bool) (hr : ∀ k s, p k s = true → q k s = true → r k s = true) :
    ∀ (cs : Comps) (i : Nat) (v : Val), cs.everyTimeAlt p i v = true → cs.everyTimeAlt q i v = true → cs.everyTimeAlt r i v = true
  | .nil, _, _, _, _ => rfl
  | .cons f t cs, 0, v, h1, h2 => by
    simp only [Comps.everyTimeAlt] at h1 h2 ⊢
    exact everyTime_and p q r hr t v h1 h2
  | .cons f t cs, i + 1, v, h1, h2 => by
    simp only [Comps.everyTimeAlt] at h1 h2 ⊢
    exact everyTime_andA p q r hr cs i v h1 h2
end

/-! ## What the DER decoder takes for an ANY is one element -/

theorem single_missing {f : Field} {t : Ty} {v : Val} (h : f.mode.missing = some v) :
    (decide (f.mode = .dflt v) || t.single v) = true := by
  cases hm : f.mode with
  | req => simp [hm, Mode.missing] at h
  | opt =>
    simp only [hm, Mode.missing, Option.some.injEq] at h
    subst h
    cases t with
    | prim k a => cases k <;> simp [Ty.single]
    | _ => simp [Ty.single]
  | dflt d =>
    simp only [hm, Mode.missing, Option.some.injEq] at h
    simp [h]

mutual
theorem decT_single : ∀ (t : Ty) (x : TLV) (v : Val), x.whole → decT t x = some v → t.single v = true
  | .prim k a, x, v, hx, h => by
    by_cases hk : k = .any
    · subst hk
      simp only [decT, decPrimT, beq_self_eq_true, if_true] at h
      have hone : oneElement x.raw = true := by
        unfold TLV.whole at hx
        simp [oneElement, hx]
      split at h
      · rename_i t ht
        split at h
        all_goals
          simp only [Option.some.injEq] at h
          subst h
          simp [Ty.single, ht]
      · simp only [Option.some.injEq] at h
        subst h
        simp [Ty.single, hone]
    · cases k <;> first | exact absurd rfl hk | (cases v <;> rfl)
  | .seq isSet a cs, x, v, hx, h => by
    simp only [decT] at h
    split at h
    · simp at h
    · rename_i xs hxs
      have hw := innerItems_whole a x xs hxs
      split at h
      · simp at h
      · rename_i vs hvs
        split at h
        · simp only [Option.some.injEq] at h; subst h
          simp only [Ty.single]
          cases isSet with
          | false => simp at hvs; exact decComps_single cs xs vs hw hvs
          | true =>
            simp only [if_true] at hvs
            split at hvs
            · exact decSet_single cs xs vs hw hvs
            · simp at hvs
        · simp at h
  | .of isSet a t, x, v, hx, h => by
    simp only [decT] at h
    split at h
    · simp at h
    · rename_i xs hxs
      have hw := innerItems_whole a x xs hxs
      split at h
      · simp at h
      · rename_i vs hvs
        simp only [Option.some.injEq] at h; subst h
        simp only [Ty.single, Vals.every_iff, Vals.toList_ofList, List.all_eq_true]
        intro w hw'
        obtain ⟨y, hy, h2⟩ := mapOpt_from hvs w hw'
        exact decT_single t y w (hw y hy) h2
  | .choice a cs, x, v, hx, h => by
    simp only [decT] at h
    have key : ∀ z : TLV, z.whole → decAlt cs 0 z = some v → (Ty.choice a cs).single v = true := by
      intro z hz1 hz
      obtain ⟨i, w, h1, h2⟩ := decAlt_single cs 0 z v hz1 hz
      rw [h1, Nat.zero_add]; exact h2
    split at h
    · exact key x hx h
    · split at h
      · simp at h
      · split at h
        · simp at h
        · rename_i z r hz
          exact key _ (readTLV_raw _ _ _ hz) h
  | .bad _, x, v, _, h => by simp [decT] at h
theorem decComps_single : ∀ (cs : Comps) (xs : List TLV) (vs : Vals), (∀ x ∈ xs, x.whole) → decComps cs xs = some vs →
    cs.single vs = true
  | .nil, [], vs, _, h => by simp [decComps] at h; subst h; rfl
  | .nil, _ :: _, vs, _, h => by simp [decComps] at h
  | .cons f t cs, [], vs, hw, h => by
    simp only [decComps] at h
    split at h
    · rename_i v vs' h1 h2
      simp only [Option.some.injEq] at h; subst h
      simp only [Comps.single, decComps_single cs [] vs' hw h2, Bool.and_true]
      exact single_missing h1
    · simp at h
  | .cons f t cs, x :: xs, vs, hw, h => by
    simp only [decComps] at h
    split at h
    · split at h
      · rename_i v vs' h1 h2
        simp only [Option.some.injEq] at h; subst h
        simp only [Comps.single, decComps_single cs xs vs' (fun y hy => hw y (by simp [hy])) h2, Bool.and_true,
          decT_single t x v (hw x (by simp)) h1, Bool.or_true]
      · simp at h
    · split at h
      · rename_i v vs' h1 h2
        simp only [Option.some.injEq] at h; subst h
        simp only [Comps.single, decComps_single cs (x :: xs) vs' hw h2, Bool.and_true]
        exact single_missing h1
      · simp at h
theorem decSet_single : ∀ (cs : Comps) (xs : List TLV) (vs : Vals), (∀ x ∈ xs, x.whole) → decSet cs xs = some vs →
    cs.single vs = true
  | .nil, xs, vs, _, h => by simp [decSet] at h; subst h; rfl
  | .cons f t cs, xs, vs, hw, h => by
    simp only [decSet] at h
    split at h
    · rename_i ws vs' h1 h2
      have ih := decSet_single cs xs vs' hw h2
      split at h
      · rename_i w hw'
        simp only [Option.some.injEq] at h; subst h
        obtain ⟨y, hy, h3⟩ := mapOpt_from h1 w (List.mem_of_getLast? hw')
        simp only [Comps.single, ih, Bool.and_true, decT_single t y w (hw y (List.mem_filter.1 hy).1) h3, Bool.or_true]
      · split at h
        · rename_i w hw'
          simp only [Option.some.injEq] at h; subst h
          simp only [Comps.single, ih, Bool.and_true]
          exact single_missing hw'
        · simp at h
    · simp at h
theorem decAlt_single : ∀ (cs : Comps) (k : Nat) (x : TLV) (v : Val), x.whole → decAlt cs k x = some v →
    ∃ i w, v = .alt (k + i) w ∧ cs.singleAlt i w = true
  | .nil, k, x, v, _, h => by simp [decAlt] at h
  | .cons f t cs, k, x, v, hx, h => by
    simp only [decAlt] at h
    split at h
    · split at h
      · rename_i w hw
        simp only [Option.some.injEq] at h
        exact ⟨0, w, h.symm, by simpa [Comps.singleAlt] using decT_single t x w hx hw⟩
      · simp at h
    · obtain ⟨i, w, h1, h2⟩ := decAlt_single cs (k + 1) x v hx h
      exact ⟨i + 1, w, by rw [h1]; congr 1; omega, by simpa [Comps.singleAlt] using h2⟩
end

theorem decode_single {t : Ty} {b r : Bytes} {v : Val} (h : decode t b = some (v, r)) : t.single v = true := by
  unfold decode at h
  split at h
  · simp at h
  · rename_i x rest hx
    split at h
    · simp at h
    · rename_i w hw
      simp only [Option.some.injEq, Prod.mk.injEq] at h
      rw [← h.1]
      exact decT_single t x w (readTLV_raw _ _ _ hx) hw

/-! ## The BER decoder -/

mutual
theorem bdecT_single : ∀ (t : Ty) (x : Elt) (v : Val), x.whole → bdecT t x = some v → t.single v = true
  | .prim k a, x, v, hx, h => by
    by_cases hk : k = .any
    · subst hk
      simp only [bdecT, bdecPrimT, beq_self_eq_true, if_true] at h
      split at h
      · simp at h
      · rename_i hi
        exact decT_single (.prim .any a) x.tlv v (whole_tlv x hx (by simpa using hi)) h
    · cases k <;> first | exact absurd rfl hk | (cases v <;> rfl)
  | .seq isSet a cs, x, v, hx, h => by
    simp only [bdecT] at h
    split at h
    · simp at h
    · rename_i xs hxs
      have hw := innerElts_whole a x xs hxs
      split at h
      · simp at h
      · rename_i vs hvs
        split at h
        · simp only [Option.some.injEq] at h; subst h
          simp only [Ty.single]
          cases isSet with
          | false => simp at hvs; exact bdecComps_single cs xs vs hw hvs
          | true =>
            simp only [if_true] at hvs
            split at hvs
            · exact bdecSet_single cs xs vs hw hvs
            · simp at hvs
        · simp at h
  | .of isSet a t, x, v, hx, h => by
    simp only [bdecT] at h
    split at h
    · simp at h
    · rename_i xs hxs
      have hw := innerElts_whole a x xs hxs
      split at h
      · simp at h
      · rename_i vs hvs
        simp only [Option.some.injEq] at h; subst h
        simp only [Ty.single, Vals.every_iff, Vals.toList_ofList, List.all_eq_true]
        intro w hw'
        obtain ⟨y, hy, h2⟩ := mapOpt_from hvs w hw'
        exact bdecT_single t y w (hw y hy) h2
  | .choice a cs, x, v, hx, h => by
    simp only [bdecT] at h
    have key : ∀ z : Elt, z.whole → bdecAlt cs 0 z = some v → (Ty.choice a cs).single v = true := by
      intro z hz1 hz
      obtain ⟨i, w, h1, h2⟩ := bdecAlt_single cs 0 z v hz1 hz
      rw [h1, Nat.zero_add]; exact h2
    split at h
    · exact key x hx h
    · split at h
      · simp at h
      · split at h
        · simp at h
        · rename_i z hz
          exact key _ (inner_raw _ _ hz).1 h
  | .bad _, x, v, _, h => by simp [bdecT] at h
theorem bdecComps_single : ∀ (cs : Comps) (xs : List Elt) (vs : Vals), (∀ x ∈ xs, x.whole) → bdecComps cs xs = some vs →
    cs.single vs = true
  | .nil, [], vs, _, h => by simp [bdecComps] at h; subst h; rfl
  | .nil, _ :: _, vs, _, h => by simp [bdecComps] at h
  | .cons f t cs, [], vs, hw, h => by
    simp only [bdecComps] at h
    split at h
    · rename_i v vs' h1 h2
      simp only [Option.some.injEq] at h; subst h
      simp only [Comps.single, bdecComps_single cs [] vs' hw h2, Bool.and_true]
      exact single_missing h1
    · simp at h
  | .cons f t cs, x :: xs, vs, hw, h => by
    simp only [bdecComps] at h
    split at h
    · split at h
      · rename_i v vs' h1 h2
        simp only [Option.some.injEq] at h; subst h
        simp only [Comps.single, bdecComps_single cs xs vs' (fun y hy => hw y (by simp [hy])) h2, Bool.and_true,
          bdecT_single t x v (hw x (by simp)) h1, Bool.or_true]
      · simp at h
    · split at h
      · rename_i v vs' h1 h2
        simp only [Option.some.injEq] at h; subst h
        simp only [Comps.single, bdecComps_single cs (x :: xs) vs' hw h2, Bool.and_true]
        exact single_missing h1
      · simp at h
theorem bdecSet_single : ∀ (cs : Comps) (xs : List Elt) (vs : Vals), (∀ x ∈ xs, x.whole) → bdecSet cs xs = some vs →
    cs.single vs = true
  | .nil, xs, vs, _, h => by simp [bdecSet] at h; subst h; rfl
  | .cons f t cs, xs, vs, hw, h => by
    simp only [bdecSet] at h
    split at h
    · rename_i ws vs' h1 h2
      have ih := bdecSet_single cs xs vs' hw h2
      split at h
      · rename_i w hw'
        simp only [Option.some.injEq] at h; subst h
        obtain ⟨y, hy, h3⟩ := mapOpt_from h1 w (List.mem_of_getLast? hw')
        simp only [Comps.single, ih, Bool.and_true, bdecT_single t y w (hw y (List.mem_filter.1 hy).1) h3, Bool.or_true]
      · split at h
        · rename_i w hw'
          simp only [Option.some.injEq] at h; subst h
          simp only [Comps.single, ih, Bool.and_true]
          exact single_missing hw'
        · simp at h
    · simp at h
theorem bdecAlt_single : ∀ (cs : Comps) (k : Nat) (x : Elt) (v : Val), x.whole → bdecAlt cs k x = some v →
    ∃ i w, v = .alt (k + i) w ∧ cs.singleAlt i w = true
  | .nil, k, x, v, _, h => by simp [bdecAlt] at h
  | .cons f t cs, k, x, v, hx, h => by
    simp only [bdecAlt] at h
    split at h
    · split at h
      · rename_i w hw
        simp only [Option.some.injEq] at h
        exact ⟨0, w, h.symm, by simpa [Comps.singleAlt] using bdecT_single t x w hx hw⟩
      · simp at h
    · obtain ⟨i, w, h1, h2⟩ := bdecAlt_single cs (k + 1) x v hx h
      exact ⟨i + 1, w, by rw [h1]; congr 1; omega, by simpa [Comps.singleAlt] using h2⟩
end

theorem berDecode_single {t : Ty} {b r : Bytes} {v : Val} (h : berDecode t b = some (v, r)) : t.single v = true := by
  unfold berDecode at h
  split at h
  · simp at h
  · rename_i x rest hx
    split at h
    · simp at h
    · rename_i w hw
      simp only [Option.some.injEq, Prod.mk.injEq] at h
      rw [← h.1]
      exact bdecT_single t x w (readElt_raw _ _ _ hx).2 hw

end Asn1
end Verif
