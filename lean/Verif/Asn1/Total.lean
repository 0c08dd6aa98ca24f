import Verif.Asn1.RtLemmas

/-! The encoder accepts every legal value that is not absurdly large. -/

namespace Verif
namespace Asn1

theorem natBytes_length (k fuel n : Nat) (h : n < 256 ^ k) : (natBytes fuel n).length ≤ k := by
  induction k generalizing fuel n with
  | zero =>
    have : n = 0 := by simpa using h
    subst this
    cases fuel <;> simp [natBytes]
  | succ k ih =>
    cases fuel with
    | zero => simp [natBytes]
    | succ fuel =>
      simp only [natBytes]
      split
      · simp
      · have : n / 256 < 256 ^ k := by
          rw [Nat.div_lt_iff_lt_mul (by omega)]
          rwa [Nat.pow_succ] at h
        have := ih fuel (n / 256) this
        simp; omega

theorem encLen_total (n : Nat) (h : n < 256 ^ 126) : ∃ l, encLen n = some l ∧ l.length ≤ 127 := by
  unfold encLen
  split
  · exact ⟨_, rfl, by simp⟩
  · have := natBytes_length 126 n n h
    simp only []
    rw [if_neg (by omega)]
    exact ⟨_, rfl, by simp; omega⟩

theorem b128Hi_length (k fuel n : Nat) (h : n < 128 ^ k) : (b128Hi fuel n).length ≤ k := by
  induction k generalizing fuel n with
  | zero =>
    have : n = 0 := by simpa using h
    subst this
    cases fuel <;> simp [b128Hi]
  | succ k ih =>
    cases fuel with
    | zero => simp [b128Hi]
    | succ fuel =>
      simp only [b128Hi]
      split
      · simp
      · have : n / 128 < 128 ^ k := by
          rw [Nat.div_lt_iff_lt_mul (by omega)]
          rwa [Nat.pow_succ] at h
        have := ih fuel (n / 128) this
        simp; omega

theorem b128_length (k n : Nat) (h : n < 128 ^ k) : (b128 n).length ≤ k + 1 := by
  have := b128Hi_length k n (n / 128) (by
    have := Nat.div_le_self n 128
    omega)
  simp [b128]; omega

theorem lt_pow128 (n : Nat) : n < 128 ^ (n + 1) := by
  induction n with
  | zero => simp
  | succ n ih => rw [Nat.pow_succ]; omega

theorem b128_length_bitLen (n : Nat) : (b128 n).length ≤ bitLen n + 1 := by
  apply b128_length
  exact Nat.lt_of_lt_of_le (bitLen_lt n) (Nat.pow_le_pow_left (by omega) _)

theorem b128_length_add (n m : Nat) (hm : m ≤ 80) : (b128 (n + m)).length ≤ bitLen n + 2 := by
  apply b128_length
  have h1 := bitLen_lt n
  have h2 : 2 ^ bitLen n ≤ 128 ^ bitLen n := Nat.pow_le_pow_left (by omega) _
  rw [Nat.pow_succ]
  omega

theorem lt_pow128' (n : Nat) (h : n ≠ 0) : n < 128 ^ n := by
  induction n with
  | zero => exact absurd rfl h
  | succ n ih =>
    rw [Nat.pow_succ]
    by_cases hn : n = 0
    · subst hn; simp
    · have := ih hn; omega

theorem encTag_length (cls : Cls) (c : Bool) (n : Nat) : (encTag cls c n).length ≤ n + 2 := by
  unfold encTag
  simp only []
  split
  · simp
  · have := b128_length n n (lt_pow128' n (by omega))
    simp; omega

theorem tlv_total (t : Tag) (isC : Bool) (c : Bytes) (h : c.length < 256 ^ 126) :
    ∃ b, tlv t isC c = some b ∧ b.length ≤ c.length + (t.num + 2 + 127) := by
  obtain ⟨l, h1, h2⟩ := encLen_total c.length h
  refine ⟨_, by simp only [tlv, h1, Option.map_some]; rfl, ?_⟩
  have := encTag_length t.cls (t.constructed || isC) t.num
  simp; omega

theorem wrap_total (isC : Bool) : ∀ (ts : TagSet) (c : Bytes), c.length + overhead ts < 256 ^ 126 →
    ∃ b, wrap isC ts c = some b ∧ b.length ≤ c.length + overhead ts
  | [], c, _ => ⟨c, rfl, by simp [overhead]⟩
  | t :: ts, c, h => by
    have ho : overhead (t :: ts) = (t.num + 2 + 127) + overhead ts := by simp [overhead]
    rw [ho] at h ⊢
    obtain ⟨b1, h1, h2⟩ := tlv_total t isC c (by omega)
    obtain ⟨b, h3, h4⟩ := wrap_total isC ts b1 (by omega)
    exact ⟨b, by simp [wrap, h1, h3], by omega⟩

theorem encStr_total (k : CharKind) (s : List Char) (h : s.all (inRepertoire k) = true) :
    ∃ b, encStr k s = some b ∧ b.length ≤ 4 * s.length := by
  induction s with
  | nil => exact ⟨[], rfl, by simp⟩
  | cons c s ih =>
    simp only [List.all_cons, Bool.and_eq_true] at h
    obtain ⟨b, h1, h2⟩ := ih h.2
    have : ∃ a, encChar k c = some a ∧ a.length ≤ 4 := by
      cases k with
      | ascii => simp only [inRepertoire, decide_eq_true_eq] at h; exact ⟨[UInt8.ofNat c.toNat], by simp [encChar, h.1], by simp⟩
      | latin1 => simp only [inRepertoire, decide_eq_true_eq] at h; exact ⟨[UInt8.ofNat c.toNat], by simp [encChar, h.1], by simp⟩
      | utf8 =>
        refine ⟨_, rfl, ?_⟩
        rw [String.length_utf8EncodeChar]
        exact Char.utf8Size_le_four c
      | utf16be =>
        simp only [encChar]
        split
        · exact ⟨_, rfl, by simp [beBytes_length]⟩
        · exact ⟨_, rfl, by simp [beBytes_length]⟩
      | utf32be => exact ⟨_, rfl, by simp [beBytes_length]⟩
    obtain ⟨a, h3, h4⟩ := this
    exact ⟨a ++ b, by simp [encStr, h1, h3], by simp; omega⟩

theorem packBits_length (fuel : Nat) (bs : List Bool) : (packBits fuel bs).length ≤ bs.length := by
  induction fuel generalizing bs with
  | zero => cases bs <;> simp [packBits]
  | succ fuel ih =>
    cases bs with
    | nil => simp [packBits]
    | cons b bs =>
      simp only [packBits, List.length_cons]
      have := ih ((b :: bs).drop 8)
      simp at this ⊢
      omega

theorem flatMap_b128_length (l : List Nat) : (l.flatMap b128).length ≤ (l.map (fun n => bitLen n + 2)).sum := by
  induction l with
  | nil => simp
  | cons n l ih =>
    have := b128_length_bitLen n
    simp only [List.flatMap_cons, List.length_append, List.map_cons, List.sum_cons]
    omega

theorem timeOk_of_legal (lo hi : Nat) (s : List Char) (h : legalTime (lo + 1) hi s = true) : timeOk lo (hi + 1) s = true := by
  have ht := trimTime_legal h
  simp only [legalTime, Bool.and_eq_true, decide_eq_true_eq, List.all_eq_true] at h
  simp only [timeOk, ht, Bool.and_eq_true, decide_eq_true_eq, List.all_eq_true]
  refine ⟨⟨⟨?_, h.1.1.2⟩, by omega⟩, by omega⟩
  intro c hc
  have := (h.1.2 c hc).2
  simp at this
  simp [this]

theorem ascii_of_legal (lo hi : Nat) (s : List Char) (h : legalTime lo hi s = true) : s.all (inRepertoire .ascii) = true := by
  simp only [legalTime, Bool.and_eq_true, decide_eq_true_eq, List.all_eq_true] at h
  rw [List.all_eq_true]
  intro c hc
  simpa [inRepertoire] using (h.1.2 c hc).1

theorem encPrim_total (k : Prim) (v : Val) (h : primLegal k v = true) :
    ∃ b, encPrim k v = some b ∧ b.length ≤ v.bulk := by
  unfold primLegal at h
  split at h
  · refine ⟨_, rfl, ?_⟩
    split <;> simp [Val.bulk]
  · exact ⟨_, rfl, by simp [encInt, beBytes_length, Val.bulk]⟩
  · exact ⟨_, rfl, by simp [encInt, beBytes_length, Val.bulk]⟩
  · rename_i bs
    have := packBits_length bs.length bs
    exact ⟨_, rfl, by simp [encBits, Val.bulk]; exact this⟩
  · exact ⟨_, rfl, by simp [Val.bulk]⟩
  · exact ⟨_, rfl, by simp [Val.bulk]⟩
  · rename_i x y r
    have key : ∃ m, mergeArcs (x :: y :: r) = some m ∧
        (m.flatMap b128).length ≤ ((x :: y :: r).map (fun n => bitLen n + 2)).sum := by
      have hr := flatMap_b128_length r
      simp only [Bool.and_eq_true, Bool.or_eq_true, decide_eq_true_eq, beq_iff_eq] at h
      match x, h with
      | 0, h =>
        have hy : y ≤ 39 := by omega
        refine ⟨y :: r, by simp [mergeArcs, hy], ?_⟩
        have := b128_length_bitLen y
        simp only [List.flatMap_cons, List.length_append, List.map_cons, List.sum_cons]; omega
      | 1, h =>
        have hy : y ≤ 39 := by omega
        refine ⟨(y + 40) :: r, by simp [mergeArcs, hy], ?_⟩
        have := b128_length_add y 40 (by omega)
        simp only [List.flatMap_cons, List.length_append, List.map_cons, List.sum_cons]; omega
      | 2, h =>
        refine ⟨(y + 80) :: r, by simp [mergeArcs], ?_⟩
        have := b128_length_add y 80 (by omega)
        simp only [List.flatMap_cons, List.length_append, List.map_cons, List.sum_cons]; omega
      | n + 3, h => omega
    obtain ⟨m, h1, h2⟩ := key
    exact ⟨m.flatMap b128, by simp [encPrim, encOid, h1], h2⟩
  · exact ⟨_, rfl, by simp [Val.bulk]⟩
  · rename_i k s
    obtain ⟨b, h1, h2⟩ := encStr_total k s h
    exact ⟨b, by simp [encPrim, h1], h2⟩
  · rename_i s
    obtain ⟨b, h1, h2⟩ := encStr_total .ascii s (ascii_of_legal _ _ s h)
    exact ⟨b, by simp [encPrim, h1, timeOk_of_legal 10 13 s h, trimTime_legal h], h2⟩
  · rename_i s
    obtain ⟨b, h1, h2⟩ := encStr_total .ascii s (ascii_of_legal _ _ s h)
    exact ⟨b, by simp [encPrim, h1, timeOk_of_legal 12 19 s h, trimTime_legal h], h2⟩
  · simp at h

theorem Vals.total_eq (p : Val → Nat) : ∀ vs : Vals, vs.total p = (vs.toList.map p).sum
  | .nil => rfl
  | .cons v vs => by simp [Vals.total, Vals.toList, Vals.total_eq p vs]

/-- Concatenated lengths do not depend on the order. -/
theorem flatMap_length_perm {α : Type} (f : α → Bytes) {l l' : List α} (h : l.Perm l') :
    (l.flatMap f).length = (l'.flatMap f).length := by
  rw [List.length_flatMap, List.length_flatMap]
  exact (h.map _).sum_nat

mutual
theorem enc_total : ∀ (t : Ty) (ine : Bool) (v : Val), t.valid v = true → t.weight v < 256 ^ 126 →
    ∃ b, enc ine t v = some b ∧ b.length ≤ t.weight v
  | .prim k a, ine, v, hv, hw => by
    simp only [Ty.valid, Bool.and_eq_true] at hv
    simp only [Ty.weight] at hw ⊢
    obtain ⟨c, h1, h2⟩ := encPrim_total k v hv.1.1
    obtain ⟨b, h3, h4⟩ := wrap_total false a.tags c (by omega)
    exact ⟨b, by simp [enc, h1, h3], by omega⟩
  | .seq isSet a cs, ine, v, hv, hw => by
    cases v <;> simp [Ty.valid] at hv
    rename_i vs
    simp only [Ty.weight] at hw ⊢
    obtain ⟨ps, h1, h2⟩ := encComps_total cs vs hv.1 (by omega)
    have hl : ((if isSet then sortBy tagsLe Prod.fst ps else ps).flatMap Prod.snd).length ≤ cs.weight vs := by
      cases isSet with
      | false => exact h2
      | true =>
        rw [if_pos rfl, flatMap_length_perm Prod.snd (sortBy_perm tagsLe Prod.fst ps)]; exact h2
    obtain ⟨b, h3, h4⟩ := wrap_total true a.tags _ (by
      show ((if isSet then sortBy tagsLe Prod.fst ps else ps).flatMap Prod.snd).length + _ < _
      omega)
    by_cases hc : (ine && ((if isSet then sortBy tagsLe Prod.fst ps else ps).flatMap Prod.snd).isEmpty) = true
    · refine ⟨[], ?_, by simp⟩
      simp only [enc]; rw [if_pos hv.2, h1]; simp only []; rw [if_pos hc]
    · refine ⟨b, ?_, by omega⟩
      simp only [enc]; rw [if_pos hv.2, h1]; simp only []; rw [if_neg hc]; exact h3
  | .of isSet a t, ine, v, hv, hw => by
    cases v <;> simp [Ty.valid] at hv
    rename_i vs
    simp only [Ty.weight] at hw ⊢
    rw [Vals.every_iff, List.all_eq_true] at hv
    rw [Vals.total_eq] at hw ⊢
    have key : ∀ l : List Val, (∀ u ∈ l, t.valid u = true) → (l.map t.weight).sum < 256 ^ 126 →
        ∃ ps : List (Bytes × Val), mapOpt (fun v => (enc ine t v).map (fun b => (b, v))) l = some ps ∧
          (ps.flatMap Prod.fst).length ≤ (l.map t.weight).sum := by
      intro l
      induction l with
      | nil => intro _ _; exact ⟨[], rfl, by simp⟩
      | cons u l ih =>
        intro hl hs
        simp only [List.map_cons, List.sum_cons] at hs ⊢
        obtain ⟨ps, h1, h2⟩ := ih (fun x hx => hl x (by simp [hx])) (by omega)
        obtain ⟨b, h3, h4⟩ := enc_total t ine u (hl u (by simp)) (by omega)
        refine ⟨(b, u) :: ps, by simp [mapOpt, h1, h3], ?_⟩
        simp only [List.flatMap_cons, List.length_append]; omega
    obtain ⟨ps, h1, h2⟩ := key vs.toList hv.1 (by omega)
    have hl : ((if isSet then sortChunks ps else ps).flatMap Prod.fst).length ≤ (vs.toList.map t.weight).sum := by
      cases isSet with
      | false => exact h2
      | true =>
        rw [if_pos rfl, sortChunks, flatMap_length_perm Prod.fst (sortBy_perm _ _ ps)]; exact h2
    obtain ⟨b, h3, h4⟩ := wrap_total true a.tags _ (by
      show ((if isSet then sortChunks ps else ps).flatMap Prod.fst).length + _ < _
      omega)
    by_cases hc : (ine && ((if isSet then sortChunks ps else ps).flatMap Prod.fst).isEmpty) = true
    · refine ⟨[], ?_, by simp⟩
      simp only [enc]; rw [if_pos hv.2, h1]; simp only []; rw [if_pos hc]
    · refine ⟨b, ?_, by omega⟩
      simp only [enc]; rw [if_pos hv.2, h1]; simp only []; rw [if_neg hc]; exact h3
  | .choice a cs, ine, v, hv, hw => by
    cases v <;> simp [Ty.valid] at hv
    rename_i i v
    simp only [Ty.weight] at hw ⊢
    obtain ⟨c, h1, h2⟩ := encAlt_total cs ine i v hv (by omega)
    obtain ⟨b, h3, h4⟩ := wrap_total true a.tags c (by omega)
    by_cases hc : (ine && c.isEmpty) = true
    · exact ⟨[], by simp only [enc, h1]; rw [if_pos hc], by simp⟩
    · exact ⟨b, by simp only [enc, h1]; rw [if_neg hc]; exact h3, by omega⟩
  | .bad _, _, _, hv, _ => by simp [Ty.valid] at hv
theorem encComps_total : ∀ (cs : Comps) (vs : Vals), cs.valid vs = true → cs.weight vs < 256 ^ 126 →
    ∃ ps, encComps cs vs = some ps ∧ (ps.flatMap Prod.snd).length ≤ cs.weight vs
  | .nil, .nil, _, _ => ⟨[], by simp [encComps], by simp⟩
  | .nil, .cons _ _, hv, _ => by simp [Comps.valid] at hv
  | .cons _ _ _, .nil, hv, _ => by simp [Comps.valid] at hv
  | .cons f t cs, .cons v vs, hv, hw => by
    simp only [Comps.valid, Bool.and_eq_true] at hv
    simp only [Comps.weight] at hw ⊢
    obtain ⟨ps, h1, h2⟩ := encComps_total cs vs hv.2 (by omega)
    by_cases hskip : f.mode ≠ .req ∧ (v = .absent ∨ f.mode = .dflt v)
    · exact ⟨ps, encComps_skip h1 hskip.1 hskip.2, by omega⟩
    · have hval : t.valid v = true := by
        have h := hv.1
        cases hf : f.mode with
        | req => simpa [hf] using h
        | opt =>
          simp only [hf, Bool.or_eq_true, beq_iff_eq] at h
          rcases h with h | h
          · exact absurd ⟨by simp [hf], Or.inl h⟩ hskip
          · exact h
        | dflt d =>
          simp only [hf, Bool.or_eq_true, beq_iff_eq] at h
          rcases h with h | h
          · exact absurd ⟨by simp [hf], Or.inr (by rw [hf, h])⟩ hskip
          · exact h
      have hna := Ty.valid_ne_absent t v hval
      obtain ⟨b, h3, h4⟩ := enc_total t f.mode.isOpt v hval (by omega)
      refine ⟨_, encComps_put h1 hna ?_ h3, ?_⟩
      · intro hm; exact hskip ⟨by simp [hm], Or.inr hm⟩
      · simp only [List.flatMap_cons, List.length_append]; omega
theorem encAlt_total : ∀ (cs : Comps) (ine : Bool) (i : Nat) (v : Val), cs.validAlt i v = true →
    cs.weightAlt i v < 256 ^ 126 → ∃ b, encAlt ine cs i v = some b ∧ b.length ≤ cs.weightAlt i v
  | .nil, _, _, _, hv, _ => by simp [Comps.validAlt] at hv
  | .cons _ t _, ine, 0, v, hv, hw => by
    simp only [Comps.validAlt, Comps.weightAlt, encAlt] at *
    exact enc_total t ine v hv hw
  | .cons _ _ cs, ine, i + 1, v, hv, hw => by
    simp only [Comps.validAlt, Comps.weightAlt, encAlt] at *
    exact encAlt_total cs ine i v hv hw
end

end Asn1
end Verif
