import Verif.Spec.Times
import Verif.Asn1.PrimLemmas
import Verif.Asn1.Canon
import Verif.Asn1.Wf
import Verif.Asn1.BuildValue

/-!
# Times are texts that are rewritten

The encoder treats a time as the text it rewrites it to; the decoder treats it as a text.
-/

namespace Verif
namespace Asn1

/-! ## Texts -/

theorem oneDot_rest (pre f : List Char) (h : oneDot (pre ++ '.' :: f) = true) : ∀ c ∈ f, c ≠ '.' := by
  rintro c hc rfl
  simp only [oneDot, List.count_append, List.count_cons_self, decide_eq_true_eq] at h
  have := List.count_pos_iff.2 hc
  omega

theorem trimTime_rewritten (s : List Char) (h : oneDot s = true) : trimTime s = rewrittenTime s := by
  rcases dot_cases s with ⟨h1, h2⟩ | ⟨pre, f, rfl, h1, h2⟩
  · simp only [rewrittenTime, h2, trimTime_none s h1]
  · have h3 : (pre ++ '.' :: f).takeWhile (· != '.') = pre := by
      rw [List.takeWhile_append_of_pos (by simpa using h1)]; simp
    rw [trimTime_dot pre f h1 (oneDot_rest pre f h)]
    simp only [rewrittenTime, h2, h3, keptFraction]
    split <;> simp_all

theorem timeOk_writable (lo hi : Nat) (s : List Char) (h : oneDot s = true) :
    timeOk lo (hi + 1) s = writableTime (lo + 1) hi s := by
  rw [Bool.eq_iff_iff]
  simp only [timeOk, writableTime, trimTime_rewritten s h, Bool.and_eq_true, List.all_eq_true, decide_eq_true_eq, bne_iff_ne,
    List.contains_eq_mem, Bool.not_eq_true', decide_eq_false_iff_not, List.mem_cons, List.not_mem_nil, or_false, not_or,
    Nat.lt_succ_iff, Nat.succ_le_iff, and_assoc]

/-- Written unchanged: exactly what is already without those zeros. -/
theorem rewrittenTime_eq (s : List Char) (h : oneDot s = true) : rewrittenTime s = s ↔ plainFraction s = true := by
  constructor
  · rcases dot_cases s with ⟨h1, h2⟩ | ⟨pre, f, rfl, h1, h2⟩
    · simp [plainFraction, h2]
    · have h3 : (pre ++ '.' :: f).takeWhile (· != '.') = pre := by
        rw [List.takeWhile_append_of_pos (by simpa using h1)]; simp
      have hf := oneDot_rest pre f h
      simp only [rewrittenTime, plainFraction, h2, h3, List.append_cancel_left_eq]
      have hk : ∀ c ∈ keptFraction f, c ≠ '.' := by
        intro c hc
        simp only [keptFraction, List.mem_append, List.mem_filter] at hc
        exact hc.elim (fun h => hf c (List.mem_of_mem_take h.1)) (fun h => hf c (List.mem_of_mem_drop h))
      split
      · intro he
        exact absurd rfl (hk '.' (by rw [he]; simp))
      · rename_i hz
        intro he
        have he : keptFraction f = f := by simpa using he
        have h4 : (f.take 4).filter (· != '0') = f.take 4 := by
          have h5 : keptFraction f = f.take 4 ++ f.drop 4 := by rw [he, List.take_append_drop]
          exact List.append_cancel_right h5
        simp only [Bool.and_eq_true, Bool.not_eq_true', bne_iff_ne, List.contains_eq_mem, decide_eq_false_iff_not]
        refine ⟨⟨fun hd => hf _ hd rfl, fun h0 => ?_⟩, by rwa [he] at hz⟩
        rw [← h4] at h0
        simp at h0
  · intro hp
    rw [← trimTime_rewritten s h, trimTime_plain s hp]

theorem rewrittenTime_mem (s : List Char) : ∀ c ∈ rewrittenTime s, c ∈ s := by
  intro c hc
  rcases dot_cases s with ⟨h1, h2⟩ | ⟨pre, f, rfl, h1, h2⟩
  · simpa only [rewrittenTime, h2] using hc
  · have h3 : (pre ++ '.' :: f).takeWhile (· != '.') = pre := by
      rw [List.takeWhile_append_of_pos (by simpa using h1)]; simp
    have hk : ∀ c ∈ keptFraction f, c ∈ f := by
      intro c hc
      simp only [keptFraction, List.mem_append, List.mem_filter] at hc
      exact hc.elim (fun h => List.mem_of_mem_take h.1) List.mem_of_mem_drop
    simp only [rewrittenTime, h2, h3, List.mem_append] at hc
    rw [List.mem_append]
    refine hc.imp id (fun hc => ?_)
    split at hc
    · exact List.mem_cons_of_mem _ (hk c hc)
    · exact (List.mem_cons.1 hc).elim (fun h => by simp [h]) (fun h => List.mem_cons_of_mem _ (hk c h))

/-! ## Fractions -/

/-- The first `k` characters without their zeros, the others as they are. -/
def dropZeros : Nat → List Char → List Char
  | 0, f => f
  | _, [] => []
  | k + 1, c :: f => if c = '0' then dropZeros k f else c :: dropZeros k f

theorem dropZeros_eq : ∀ (k : Nat) (f : List Char), dropZeros k f = (f.take k).filter (· != '0') ++ f.drop k
  | 0, f => by simp [dropZeros]
  | k + 1, [] => by simp [dropZeros]
  | k + 1, c :: f => by
    simp only [dropZeros, List.take_succ_cons, List.drop_succ_cons, List.filter_cons, dropZeros_eq k f]
    by_cases hc : c = '0' <;> simp [hc]

theorem digitsValue_zero : ∀ f : List Char, (∀ c ∈ f, c.toNat - '0'.toNat = 0) → digitsValue f = 0
  | [], _ => rfl
  | c :: f, h => by
    simp only [digitsValue, h c (by simp), digitsValue_zero f (fun d hd => h d (by simp [hd])), Nat.zero_mul, Nat.add_zero]

theorem digitsValue_zero_iff (f : List Char) (hd : ∀ c ∈ f, c.isDigit = true) : digitsValue f = 0 ↔ ∀ c ∈ f, c = '0' := by
  constructor
  · induction f with
    | nil => simp
    | cons c f ih =>
      intro h
      simp only [digitsValue] at h
      have h1 : digitsValue f = 0 := by omega
      have h2 : (c.toNat - '0'.toNat) * 10 ^ f.length = 0 := by omega
      have h3 : c.toNat - '0'.toNat = 0 := (Nat.mul_eq_zero.1 h2).resolve_right (Nat.pos_iff_ne_zero.1 (Nat.pow_pos (by decide)))
      have h4 := hd c (by simp)
      simp only [Char.isDigit, Bool.and_eq_true, decide_eq_true_eq] at h4
      have h5 : c = '0' := by
        apply Char.toNat_inj.1
        have h6 : (48 : Nat) ≤ c.toNat := by simpa [UInt32.le_iff_toNat_le] using h4.1
        have h7 : '0'.toNat = 48 := rfl
        omega
      intro d hdm
      rcases List.mem_cons.1 hdm with rfl | hdm
      · exact h5
      · exact ih (fun d hd' => hd d (by simp [hd'])) h1 d hdm
  · intro h
    exact digitsValue_zero f (fun c hc => by rw [h c hc]; rfl)

theorem dropZeros_le : ∀ (k : Nat) (f : List Char), fractionLe f (dropZeros k f)
  | 0, f => Nat.le_refl _
  | k + 1, [] => Nat.le_refl _
  | k + 1, c :: f => by
    have ih := dropZeros_le k f
    unfold fractionLe at ih ⊢
    simp only [dropZeros]
    by_cases hc : c = '0'
    · subst hc
      simp only [if_true, digitsValue, List.length_cons, Nat.sub_self, Nat.zero_mul, Nat.zero_add, Nat.pow_succ]
      calc _ ≤ _ := ih
        _ ≤ _ := by rw [← Nat.mul_assoc]; omega
    · simp only [if_neg hc, digitsValue, List.length_cons, Nat.pow_succ]
      rw [Nat.add_mul, Nat.add_mul]
      refine Nat.add_le_add (Nat.le_of_eq ?_) ?_
      · generalize c.toNat - '0'.toNat = d
        rw [Nat.mul_assoc, Nat.mul_assoc, ← Nat.mul_assoc (10 ^ f.length), ← Nat.mul_assoc (10 ^ _), Nat.mul_comm (10 ^ f.length)]
      · rw [← Nat.mul_assoc, ← Nat.mul_assoc]
        exact Nat.mul_le_mul_right 10 ih

theorem zerosLast_cons (k : Nat) (c : Char) (f : List Char) :
    zerosLast (k + 1) (c :: f) ↔ (c = '0' → ∀ d ∈ f, d = '0') ∧ zerosLast k f := by
  constructor
  · intro h
    refine ⟨fun hc d hd => h 0 (by omega) (by simp [hc]) d (by simp [hd]), fun i hi he => ?_⟩
    simpa using h (i + 1) (by omega) (by simpa using he)
  · rintro ⟨h1, h2⟩ i hi he
    cases i with
    | zero =>
      have hc : c = '0' := by simpa using he
      intro d hd
      exact (List.mem_cons.1 (by simpa using hd)).elim (fun h => h.trans hc) (h1 hc d)
    | succ i => simpa using h2 i (by omega) (by simpa using he)

theorem dropZeros_zero : ∀ (k : Nat) (f : List Char), (∀ c ∈ f, c = '0') → ∀ c ∈ dropZeros k f, c = '0' := by
  intro k f h c hc
  rw [dropZeros_eq, List.mem_append, List.mem_filter] at hc
  exact hc.elim (fun hc => h c (List.mem_of_mem_take hc.1)) (fun hc => h c (List.mem_of_mem_drop hc))

theorem dropZeros_same : ∀ (k : Nat) (f : List Char), (∀ c ∈ f, c.isDigit = true) →
    (fractionEq f (dropZeros k f) ↔ zerosLast k f)
  | 0, f, _ => ⟨fun _ i hi => by omega, fun _ => rfl⟩
  | k + 1, [], _ => ⟨fun _ i _ he => by simp at he, fun _ => rfl⟩
  | k + 1, c :: f, hd => by
    have hd' : ∀ c ∈ f, c.isDigit = true := fun c hc => hd c (by simp [hc])
    have ih := dropZeros_same k f hd'
    have hle := dropZeros_le k f
    rw [zerosLast_cons, ← ih]
    unfold fractionEq at ih ⊢
    unfold fractionLe at hle
    simp only [dropZeros]
    by_cases hc : c = '0'
    · subst hc
      simp only [if_true, digitsValue, List.length_cons, Nat.sub_self, Nat.zero_mul, Nat.zero_add, Nat.pow_succ, forall_const]
      constructor
      · intro h
        have h0 : digitsValue f = 0 := by
          rw [← Nat.mul_assoc] at h
          have : digitsValue f * 10 ^ (dropZeros k f).length = 0 := by omega
          exact (Nat.mul_eq_zero.1 this).resolve_right (Nat.pos_iff_ne_zero.1 (Nat.pow_pos (by decide)))
        have h1 := (digitsValue_zero_iff f hd').1 h0
        refine ⟨h1, ?_⟩
        rw [h0, digitsValue_zero _ (fun c hc => by rw [dropZeros_zero k f h1 c hc]; rfl)]
        simp
      · rintro ⟨h1, -⟩
        rw [(digitsValue_zero_iff f hd').2 h1, digitsValue_zero _ (fun c hc => by rw [dropZeros_zero k f h1 c hc]; rfl)]
        simp
    · simp only [digitsValue, List.length_cons, Nat.pow_succ, hc, if_false, false_implies, true_and]
      have h1 : (c.toNat - '0'.toNat) * 10 ^ f.length * (10 ^ (dropZeros k f).length * 10) =
          (c.toNat - '0'.toNat) * 10 ^ (dropZeros k f).length * (10 ^ f.length * 10) := by
        generalize c.toNat - '0'.toNat = d
        rw [Nat.mul_assoc, Nat.mul_assoc, ← Nat.mul_assoc (10 ^ f.length), ← Nat.mul_assoc (10 ^ _), Nat.mul_comm (10 ^ f.length)]
      rw [Nat.add_mul, Nat.add_mul, h1, Nat.add_left_cancel_iff, ← Nat.mul_assoc, ← Nat.mul_assoc]
      exact Nat.mul_left_inj (by decide)

/-! ## Types -/

/-- No times inside. -/
def Ty.timeless (t : Ty) : Bool := t.each (fun u => match u with
  | .prim .utcTime _ => false
  | .prim .generalizedTime _ => false
  | _ => true)

mutual
/-- Times have no constraints of their own and do not occur in components with a DEFAULT. -/
def Ty.timely : Ty → Bool
  | .prim .utcTime a => a.spec == .inter .nil
  | .prim .generalizedTime a => a.spec == .inter .nil
  | .prim _ _ => true
  | .seq _ _ cs => cs.timely
  | .of _ _ t => t.timely
  | .choice _ cs => cs.timely
  | .bad _ => true
def Comps.timely : Comps → Bool
  | .nil => true
  | .cons f t cs => t.timely && cs.timely && (match f.mode with
    | .dflt _ => t.timeless
    | _ => true)
end

theorem Prim.asText_any (k : Prim) : (k.asText == .any) = (k == .any) := by cases k <;> rfl

theorem Ty.asText_attrs (t : Ty) : t.asText.attrs = t.attrs := by cases t <;> simp [Ty.asText, Ty.attrs]
theorem Ty.asText_tags (t : Ty) : t.asText.tags = t.tags := by cases t <;> simp [Ty.asText, Ty.tags]
theorem Ty.asText_anyLike (t : Ty) : t.asText.anyLike = t.anyLike := by
  cases t with
  | prim k a => cases k <;> rfl
  | _ => simp [Ty.asText, Ty.anyLike]

mutual
theorem Ty.asText_matches : ∀ (t : Ty) (x : TLV), t.asText.matches x = t.matches x
  | .prim _ _, x => by simp only [Ty.asText, Ty.matches, Prim.asText_any]
  | .seq _ _ _, x => by simp [Ty.asText, Ty.matches]
  | .of _ _ _, x => by simp [Ty.asText, Ty.matches]
  | .choice _ cs, x => by simp only [Ty.asText, Ty.matches, Comps.asText_matches cs x]
  | .bad _, x => rfl
theorem Comps.asText_matches : ∀ (cs : Comps) (x : TLV), cs.asText.matches x = cs.matches x
  | .nil, _ => rfl
  | .cons _ t cs, x => by simp only [Comps.asText, Comps.matches, Ty.asText_matches t x, Comps.asText_matches cs x]
end

theorem Comps.asText_window (x : TLV) : ∀ cs : Comps, cs.asText.windowMatches x = cs.windowMatches x
  | .nil => rfl
  | .cons f t cs => by simp only [Comps.asText, Comps.windowMatches, Ty.asText_matches, Comps.asText_window x cs]

theorem Comps.asText_noOpen : ∀ cs : Comps, cs.asText.noOpen = cs.noOpen
  | .nil => rfl
  | .cons f t cs => by simp only [Comps.asText, Comps.noOpen, Comps.asText_noOpen cs]

theorem Comps.asText_names : ∀ (cs : Comps) (vs : Vals), presentNames cs.asText vs = presentNames cs vs
  | .nil, vs => by cases vs <;> rfl
  | .cons f t cs, .nil => rfl
  | .cons f t cs, .cons v vs => by simp only [Comps.asText, presentNames, Comps.asText_names cs vs]

theorem Comps.asText_get : ∀ (cs : Comps) (i : Nat), cs.asText.get? i = (cs.get? i).map (fun p => (p.1, p.2.asText))
  | .nil, _ => rfl
  | .cons _ _ _, 0 => rfl
  | .cons _ _ cs, i + 1 => Comps.asText_get cs i

/-! ## The decoder -/

theorem decPrim_asText (k : Prim) (b : Bytes) : decPrim k.asText b = decPrim k b := by cases k <;> rfl

mutual
theorem Ty.asText_decT : ∀ (t : Ty) (x : TLV), decT t.asText x = decT t x
  | .prim k a, x => by simp only [Ty.asText, decT, decPrimT, Prim.asText_any, decPrim_asText]
  | .seq s a cs, x => by
    simp only [Ty.asText, decT, Comps.asText_noOpen, Comps.asText_names]
    have h1 : ∀ xs, decSet cs.asText xs = decSet cs xs := Comps.asText_decSet cs
    have h2 : ∀ xs, decComps cs.asText xs = decComps cs xs := Comps.asText_decComps cs
    have h3 : cs.asText.matches = cs.matches := funext (Comps.asText_matches cs)
    simp only [h1, h2, h3]
  | .of s a t, x => by
    have : decT t.asText = decT t := funext (Ty.asText_decT t)
    simp only [Ty.asText, decT, this]
  | .choice a cs, x => by
    have : ∀ k y, decAlt cs.asText k y = decAlt cs k y := Comps.asText_decAlt cs
    simp only [Ty.asText, decT, this]
  | .bad _, _ => rfl
theorem Comps.asText_decComps : ∀ (cs : Comps) (xs : List TLV), decComps cs.asText xs = decComps cs xs
  | .nil, _ => rfl
  | .cons f t cs, [] => by simp only [Comps.asText, decComps, Comps.asText_decComps cs []]
  | .cons f t cs, x :: xs => by
    simp only [Comps.asText, decComps, Ty.asText_matches, Ty.asText_anyLike,
      Comps.asText_window, Ty.asText_decT t x, Comps.asText_decComps cs xs, Comps.asText_decComps cs (x :: xs)]
theorem Comps.asText_decSet : ∀ (cs : Comps) (xs : List TLV), decSet cs.asText xs = decSet cs xs
  | .nil, _ => rfl
  | .cons f t cs, xs => by
    have h1 : decT t.asText = decT t := funext (Ty.asText_decT t)
    have h2 : t.asText.matches = t.matches := funext (Ty.asText_matches t)
    simp only [Comps.asText, decSet, h1, h2, Comps.asText_decSet cs xs]
theorem Comps.asText_decAlt : ∀ (cs : Comps) (k : Nat) (x : TLV), decAlt cs.asText k x = decAlt cs k x
  | .nil, _, _ => rfl
  | .cons f t cs, k, x => by
    simp only [Comps.asText, decAlt, Ty.asText_matches, Ty.asText_decT t x, Comps.asText_decAlt cs (k + 1) x]
end

theorem Ty.asText_decode (t : Ty) (b : Bytes) : decode t.asText b = decode t b := by simp only [decode, Ty.asText_decT]

/-! ## Conditions on types -/

mutual
theorem Ty.asText_firsts : ∀ t : Ty, t.asText.firsts = t.firsts
  | .prim _ _ | .seq _ _ _ | .of _ _ _ | .bad _ => by simp [Ty.asText, Ty.firsts]
  | .choice a cs => by simp only [Ty.asText, Ty.firsts, Comps.asText_firsts cs]
theorem Comps.asText_firsts : ∀ cs : Comps, cs.asText.firsts = cs.firsts
  | .nil => rfl
  | .cons f t cs => by simp only [Comps.asText, Comps.firsts, Ty.asText_firsts t, Comps.asText_firsts cs]
end

mutual
theorem Ty.asText_anyFirst : ∀ t : Ty, t.asText.anyFirst = t.anyFirst
  | .prim k _ => by simp only [Ty.asText, Ty.anyFirst, Prim.asText_any]
  | .seq _ _ _ | .of _ _ _ | .bad _ => by simp [Ty.asText, Ty.anyFirst]
  | .choice a cs => by simp only [Ty.asText, Ty.anyFirst, Comps.asText_anyFirst cs]
theorem Comps.asText_anyFirst : ∀ cs : Comps, cs.asText.anyFirst = cs.anyFirst
  | .nil => rfl
  | .cons f t cs => by simp only [Comps.asText, Comps.anyFirst, Ty.asText_anyFirst t, Comps.asText_anyFirst cs]
end

theorem Ty.asText_disjoint (t u : Ty) : t.asText.disjoint u.asText = t.disjoint u := by
  simp only [Ty.disjoint, Ty.asText_firsts, Ty.asText_anyFirst]

theorem Ty.asText_window (t : Ty) : ∀ cs : Comps, t.asText.disjointWindow cs.asText = t.disjointWindow cs
  | .nil => rfl
  | .cons f u cs => by simp only [Comps.asText, Ty.disjointWindow, Ty.asText_disjoint, Ty.asText_window t cs]

theorem Ty.asText_all (t : Ty) : ∀ cs : Comps, t.asText.disjointAll cs.asText = t.disjointAll cs
  | .nil => rfl
  | .cons f u cs => by simp only [Comps.asText, Ty.disjointAll, Ty.asText_disjoint, Ty.asText_all t cs]

theorem Comps.asText_seqOk : ∀ cs : Comps, cs.asText.seqOk = cs.seqOk
  | .nil => rfl
  | .cons f t cs => by simp only [Comps.asText, Comps.seqOk, Ty.asText_window, Comps.asText_seqOk cs]

theorem Comps.asText_pairOk : ∀ cs : Comps, cs.asText.pairOk = cs.pairOk
  | .nil => rfl
  | .cons f t cs => by simp only [Comps.asText, Comps.pairOk, Ty.asText_all, Comps.asText_pairOk cs]

mutual
theorem Ty.asText_canVanish : ∀ t : Ty, t.asText.canVanish = t.canVanish
  | .prim _ _ => rfl
  | .seq s a cs => by simp only [Ty.asText, Ty.canVanish, Comps.asText_canVanish cs]
  | .of s a t => by simp only [Ty.asText, Ty.canVanish, Ty.asText_canVanish t]
  | .choice a cs => by simp only [Ty.asText, Ty.canVanish, Comps.asText_someVanish cs]
  | .bad _ => rfl
theorem Comps.asText_canVanish : ∀ cs : Comps, cs.asText.canVanish = cs.canVanish
  | .nil => rfl
  | .cons f t cs => by simp only [Comps.asText, Comps.canVanish, Comps.asText_canVanish cs]
theorem Comps.asText_someVanish : ∀ cs : Comps, cs.asText.someVanish = cs.someVanish
  | .nil => rfl
  | .cons f t cs => by simp only [Comps.asText, Comps.someVanish, Ty.asText_canVanish t, Comps.asText_someVanish cs]
end

theorem Comps.asText_solid : ∀ cs : Comps, cs.asText.solid = cs.solid
  | .nil => rfl
  | .cons f t cs => by simp only [Comps.asText, Comps.solid, Ty.asText_canVanish, Comps.asText_solid cs]

mutual
theorem Ty.asText_wf : ∀ t : Ty, t.asText.wf = t.wf
  | .prim k a => by simp only [Ty.asText, Ty.wf, Prim.asText_any]
  | .seq s a cs => by
    simp only [Ty.wf, Ty.asText, Comps.asText_pairOk, Comps.asText_anyFirst, Comps.asText_seqOk, Comps.asText_solid, Comps.asText_wf cs]
  | .of s a t => by simp only [Ty.wf, Ty.asText, Ty.asText_wf t]
  | .choice a cs => by simp only [Ty.wf, Ty.asText, Comps.asText_pairOk, Comps.asText_wf cs]
  | .bad _ => rfl
theorem Comps.asText_wf : ∀ cs : Comps, cs.asText.wf = cs.wf
  | .nil => rfl
  | .cons f t cs => by simp only [Comps.asText, Comps.wf, Ty.asText_wf t, Comps.asText_wf cs]
end

mutual
theorem Ty.asText_vanish : ∀ (t : Ty) (v : Val), t.asText.vanish v = t.vanish v
  | .prim _ _, v => by simp [Ty.asText, Ty.vanish]
  | .seq s a cs, v => by
    cases v <;> simp only [Ty.asText, Ty.vanish]
    exact Comps.asText_vanish cs _
  | .of s a t, v => by
    cases v <;> simp only [Ty.asText, Ty.vanish]
    rw [funext (Ty.asText_vanish t)]
  | .choice a cs, v => by
    cases v <;> simp only [Ty.asText, Ty.vanish]
    exact Comps.asText_vanishAlt cs _ _
  | .bad _, v => rfl
theorem Comps.asText_vanish : ∀ (cs : Comps) (vs : Vals), cs.asText.vanish vs = cs.vanish vs
  | .nil, vs => by cases vs <;> rfl
  | .cons f t cs, .nil => rfl
  | .cons f t cs, .cons v vs => by
    simp only [Comps.asText, Comps.vanish, Ty.asText_vanish t v, Comps.asText_vanish cs vs]
theorem Comps.asText_vanishAlt : ∀ (cs : Comps) (i : Nat) (v : Val), cs.asText.vanishAlt i v = cs.vanishAlt i v
  | .nil, _, _ => rfl
  | .cons _ t _, 0, v => Ty.asText_vanish t v
  | .cons _ _ cs, i + 1, v => Comps.asText_vanishAlt cs i v
end

mutual
theorem Ty.asText_same : ∀ (t : Ty) (ine : Bool) (v w : Val), t.asText.same ine v w ↔ t.same ine v w
  | .prim _ _, _, _, _ => by simp only [Ty.asText, Ty.same]
  | .seq s a cs, ine, v, w => by
    cases v <;> cases w <;> simp only [Ty.asText, Ty.same]
    exact Comps.asText_same cs _ _
  | .of s a t, ine, v, w => by
    cases v <;> cases w <;> simp only [Ty.asText, Ty.same]
    have h : t.asText.same ine = t.same ine := funext fun v => funext fun w => propext (Ty.asText_same t ine v w)
    simp only [h, Ty.asText_vanish]
  | .choice a cs, ine, v, w => by
    cases v <;> cases w <;> simp only [Ty.asText, Ty.same]
    rw [Comps.asText_sameAlt]
  | .bad _, _, _, _ => Iff.rfl
theorem Comps.asText_same : ∀ (cs : Comps) (vs ws : Vals), cs.asText.same vs ws ↔ cs.same vs ws
  | .nil, vs, ws => by cases vs <;> cases ws <;> exact Iff.rfl
  | .cons f t cs, .nil, ws => Iff.rfl
  | .cons f t cs, .cons v vs, .nil => Iff.rfl
  | .cons f t cs, .cons v vs, .cons w ws => by
    have h1 : ∀ i v w, t.asText.same i v w ↔ t.same i v w := Ty.asText_same t
    simp only [Comps.asText, Comps.same, h1, Ty.asText_vanish, Comps.asText_same cs vs ws]
theorem Comps.asText_sameAlt : ∀ (cs : Comps) (ine : Bool) (i : Nat) (v w : Val), cs.asText.sameAlt ine i v w ↔ cs.sameAlt ine i v w
  | .nil, _, _, _, _ => Iff.rfl
  | .cons _ t _, ine, 0, v, w => Ty.asText_same t ine v w
  | .cons _ _ cs, ine, i + 1, v, w => Comps.asText_sameAlt cs ine i v w
end

/-! ## Rewriting -/

theorem Prim.rewritten_absent (k : Prim) (v : Val) : k.rewritten v = .absent ↔ v = .absent := by
  cases k <;> cases v <;> simp [Prim.rewritten]

theorem Ty.rewritten_absent (t : Ty) (v : Val) : t.rewritten v = .absent ↔ v = .absent := by
  cases t with
  | prim k a => exact k.rewritten_absent v
  | _ => cases v <;> simp [Ty.rewritten]

mutual
theorem Ty.timeless_rewritten : ∀ (t : Ty) (v : Val), t.timeless = true → t.rewritten v = v
  | .prim k a, v, h => by cases k <;> simp [Ty.timeless, Ty.each] at h <;> rfl
  | .seq s a cs, v, h => by
    cases v <;> simp only [Ty.rewritten]
    rw [Comps.timeless_rewritten cs _ (by simpa [Ty.timeless, Ty.each] using h)]
  | .of s a t, v, h => by
    cases v <;> simp only [Ty.rewritten]
    rename_i vs
    have h' : t.timeless = true := by simpa [Ty.timeless, Ty.each] using h
    have : (fun v => t.rewritten v) = id := funext fun v => Ty.timeless_rewritten t v h'
    rw [show t.rewritten = id from this, List.map_id, Vals.ofList_toList]
  | .choice a cs, v, h => by
    cases v <;> simp only [Ty.rewritten]
    rw [Comps.timeless_rewrittenAlt cs _ _ (by simpa [Ty.timeless, Ty.each] using h)]
  | .bad _, v, _ => by simp [Ty.rewritten]
theorem Comps.timeless_rewritten : ∀ (cs : Comps) (vs : Vals), cs.each (fun u => match u with
    | .prim .utcTime _ => false
    | .prim .generalizedTime _ => false
    | _ => true) = true → cs.rewritten vs = vs
  | .nil, vs, _ => by cases vs <;> rfl
  | .cons f t cs, .nil, _ => rfl
  | .cons f t cs, .cons v vs, h => by
    simp only [Comps.each, Bool.and_eq_true] at h
    simp only [Comps.rewritten, Ty.timeless_rewritten t v h.1, Comps.timeless_rewritten cs vs h.2]
theorem Comps.timeless_rewrittenAlt : ∀ (cs : Comps) (i : Nat) (v : Val), cs.each (fun u => match u with
    | .prim .utcTime _ => false
    | .prim .generalizedTime _ => false
    | _ => true) = true → cs.rewrittenAlt i v = v
  | .nil, _, _, _ => rfl
  | .cons _ t _, 0, v, h => by
    simp only [Comps.each, Bool.and_eq_true] at h
    exact Ty.timeless_rewritten t v h.1
  | .cons _ _ cs, i + 1, v, h => by
    simp only [Comps.each, Bool.and_eq_true] at h
    exact Comps.timeless_rewrittenAlt cs i v h.2
end

mutual
theorem Ty.timeless_every (p : Prim → List Char → Bool) : ∀ (t : Ty) (v : Val), t.timeless = true → t.everyTime p v = true
  | .prim k a, v, h => by cases k <;> simp [Ty.timeless, Ty.each] at h <;> cases v <;> rfl
  | .seq s a cs, v, h => by
    cases v <;> simp only [Ty.everyTime]
    exact Comps.timeless_every p cs _ (by simpa [Ty.timeless, Ty.each] using h)
  | .of s a t, v, h => by
    cases v <;> simp only [Ty.everyTime]
    rw [Vals.every_iff, List.all_eq_true]
    exact fun u _ => Ty.timeless_every p t u (by simpa [Ty.timeless, Ty.each] using h)
  | .choice a cs, v, h => by
    cases v <;> simp only [Ty.everyTime]
    exact Comps.timeless_everyAlt p cs _ _ (by simpa [Ty.timeless, Ty.each] using h)
  | .bad _, v, _ => by simp [Ty.everyTime]
theorem Comps.timeless_every (p : Prim → List Char → Bool) : ∀ (cs : Comps) (vs : Vals), cs.each (fun u => match u with
    | .prim .utcTime _ => false
    | .prim .generalizedTime _ => false
    | _ => true) = true → cs.everyTime p vs = true
  | .nil, vs, _ => by cases vs <;> rfl
  | .cons f t cs, .nil, _ => rfl
  | .cons f t cs, .cons v vs, h => by
    simp only [Comps.each, Bool.and_eq_true] at h
    simp only [Comps.everyTime, Ty.timeless_every p t v h.1, Comps.timeless_every p cs vs h.2, Bool.and_self]
theorem Comps.timeless_everyAlt (p : Prim → List Char → Bool) : ∀ (cs : Comps) (i : Nat) (v : Val), cs.each (fun u => match u with
    | .prim .utcTime _ => false
    | .prim .generalizedTime _ => false
    | _ => true) = true → cs.everyTimeAlt p i v = true
  | .nil, _, _, _ => rfl
  | .cons _ t _, 0, v, h => by
    simp only [Comps.each, Bool.and_eq_true] at h
    exact Ty.timeless_every p t v h.1
  | .cons _ _ cs, i + 1, v, h => by
    simp only [Comps.each, Bool.and_eq_true] at h
    exact Comps.timeless_everyAlt p cs i v h.2
end

mutual
theorem Ty.timeless_asText : ∀ t : Ty, t.timeless = true → t.asText = t
  | .prim k a, h => by cases k <;> simp [Ty.timeless, Ty.each] at h <;> rfl
  | .seq s a cs, h => by
    simp only [Ty.asText]
    rw [Comps.timeless_asText cs (by simpa [Ty.timeless, Ty.each] using h)]
  | .of s a t, h => by
    simp only [Ty.asText]
    rw [Ty.timeless_asText t (by simpa [Ty.timeless, Ty.each] using h)]
  | .choice a cs, h => by
    simp only [Ty.asText]
    rw [Comps.timeless_asText cs (by simpa [Ty.timeless, Ty.each] using h)]
  | .bad _, _ => rfl
theorem Comps.timeless_asText : ∀ cs : Comps, cs.each (fun u => match u with
    | .prim .utcTime _ => false
    | .prim .generalizedTime _ => false
    | _ => true) = true → cs.asText = cs
  | .nil, _ => rfl
  | .cons f t cs, h => by
    simp only [Comps.each, Bool.and_eq_true] at h
    simp only [Comps.asText, Ty.timeless_asText t h.1, Comps.timeless_asText cs h.2]
end

theorem Comps.rewritten_names : ∀ (cs : Comps) (vs : Vals), presentNames cs.asText (cs.rewritten vs) = presentNames cs vs
  | .nil, vs => by cases vs <;> rfl
  | .cons f t cs, .nil => rfl
  | .cons f t cs, .cons v vs => by
    simp only [Comps.asText, Comps.rewritten, presentNames, Comps.rewritten_names cs vs, Ty.rewritten_absent]

theorem Ty.rewritten_setKey (t : Ty) (v : Val) : setKey t.asText (t.rewritten v) = setKey t v := by
  cases t with
  | choice a cs =>
    cases v with
    | alt i v =>
      simp only [Ty.asText, Ty.rewritten, setKey, Comps.asText_get]
      cases cs.get? i with
      | none => rfl
      | some p => simp only [Option.map_some, Ty.asText_tags]
    | _ => simp [Ty.asText, Ty.rewritten, setKey, Ty.tags]
  | _ => simp [Ty.asText, setKey, Ty.tags]

theorem Vals.every_map (p q : Val → Bool) (f : Val → Val) : ∀ vs : Vals, (∀ v, p v = true → q (f v) = true) → vs.every p = true →
    (Vals.ofList (vs.toList.map f)).every q = true
  | .nil, _, _ => rfl
  | .cons v vs, h, hp => by
    simp only [Vals.every, Bool.and_eq_true] at hp
    simp only [Vals.toList, List.map_cons, Vals.ofList, Vals.every, h v hp.1, Vals.every_map p q f vs h hp.2, Bool.and_self]

theorem primLegal_rewritten (k : Prim) (v : Val) (h : primLegal k.asText v = true) : primLegal k.asText (k.rewritten v) = true := by
  cases k <;> try exact h
  all_goals
    cases v <;> try exact h
    simp only [Prim.asText, Prim.rewritten, primLegal, List.all_eq_true] at h ⊢
    exact fun c hc => h c (rewrittenTime_mem _ c hc)

mutual
theorem Ty.rewritten_valid : ∀ (t : Ty) (v : Val), t.timely = true → t.asText.valid v = true → t.asText.valid (t.rewritten v) = true
  | .prim k a, v, ht, h => by
    cases k
    case utcTime | generalizedTime =>
      simp only [Ty.timely, beq_iff_eq] at ht
      simp only [Ty.asText, Ty.rewritten, Ty.valid, Bool.and_eq_true, ht] at h ⊢
      exact ⟨⟨primLegal_rewritten _ _ h.1.1, rfl⟩, rfl⟩
    all_goals exact h
  | .seq s a cs, v, ht, h => by
    cases v <;> simp only [Ty.asText, Ty.valid, Ty.rewritten, Bool.and_eq_true] at h ⊢
    all_goals first | contradiction | skip
    rw [Comps.asText_names] at h
    rw [Comps.rewritten_names]
    exact ⟨Comps.rewritten_valid cs _ ht h.1, h.2⟩
  | .of s a t, v, ht, h => by
    cases v <;> simp only [Ty.asText, Ty.valid, Ty.rewritten, Bool.and_eq_true, Vals.length_ofList, List.length_map] at h ⊢
    all_goals first | contradiction | skip
    refine ⟨Vals.every_map _ _ _ _ (fun v hv => Ty.rewritten_valid t v ht hv) h.1, ?_⟩
    rw [Vals.length_toList]
    exact h.2
  | .choice a cs, v, ht, h => by
    cases v <;> simp only [Ty.asText, Ty.valid, Ty.rewritten] at h ⊢
    all_goals first | contradiction | skip
    exact Comps.rewritten_validAlt cs _ _ ht h
  | .bad _, v, _, h => by simp [Ty.asText, Ty.valid] at h
theorem Comps.rewritten_valid : ∀ (cs : Comps) (vs : Vals), cs.timely = true → cs.asText.valid vs = true →
    cs.asText.valid (cs.rewritten vs) = true
  | .nil, vs, _, h => by cases vs <;> exact h
  | .cons f t cs, .nil, _, h => by simp [Comps.asText, Comps.valid] at h
  | .cons f t cs, .cons v vs, ht, h => by
    simp only [Comps.timely, Bool.and_eq_true] at ht
    simp only [Comps.asText, Comps.valid, Comps.rewritten, Bool.and_eq_true] at h ⊢
    refine ⟨?_, Comps.rewritten_valid cs vs ht.1.2 h.2⟩
    have h1 := h.1
    have h2 := ht.2
    cases hf : f.mode <;> simp only [hf, Bool.or_eq_true, beq_iff_eq] at h1 h2 ⊢
    · exact Ty.rewritten_valid t v ht.1.1 h1
    · exact h1.imp (t.rewritten_absent v).2 (Ty.rewritten_valid t v ht.1.1)
    · rw [Ty.timeless_rewritten t v h2]
      exact h1
theorem Comps.rewritten_validAlt : ∀ (cs : Comps) (i : Nat) (v : Val), cs.timely = true → cs.asText.validAlt i v = true →
    cs.asText.validAlt i (cs.rewrittenAlt i v) = true
  | .nil, _, _, _, h => h
  | .cons _ t _, 0, v, ht, h => by
    simp only [Comps.timely, Bool.and_eq_true] at ht
    exact Ty.rewritten_valid t v ht.1.1 h
  | .cons _ _ cs, i + 1, v, ht, h => by
    simp only [Comps.timely, Bool.and_eq_true] at ht
    exact Comps.rewritten_validAlt cs i v ht.1.2 h
end

/-! ## The encoder -/

/-- `x` if `c`, and nothing otherwise. -/
def onlyIf {α : Type} (c : Bool) (x : Option α) : Option α := if c then x else none

theorem onlyIf_some {α : Type} {c : Bool} {x : Option α} {a : α} : onlyIf c x = some a ↔ c = true ∧ x = some a := by
  cases c <;> simp [onlyIf]

theorem encPrim_rewritten (k : Prim) (v : Val) (h : k.everyTime (fun _ s => oneDot s) v = true) :
    encPrim k v = onlyIf (k.everyTime writable v) (encPrim k.asText (k.rewritten v)) := by
  cases k
  case utcTime =>
    cases v <;> try rfl
    rename_i s
    simp only [Prim.everyTime] at h ⊢
    simp only [encPrim, timeOk_writable 10 13 s h, writable, onlyIf, Prim.asText, Prim.rewritten, trimTime_rewritten s h,
      Nat.reduceAdd]
    rfl
  case generalizedTime =>
    cases v <;> try rfl
    rename_i s
    simp only [Prim.everyTime] at h ⊢
    simp only [encPrim, timeOk_writable 12 19 s h, writable, onlyIf, Prim.asText, Prim.rewritten, trimTime_rewritten s h,
      Nat.reduceAdd]
    rfl
  all_goals cases v <;> rfl

theorem mapOpt_onlyIf {α : Type} (f g : Val → Option α) (r : Val → Val) (p : Val → Bool) : ∀ vs : Vals,
    (∀ v ∈ vs.toList, f v = onlyIf (p v) (g (r v))) → mapOpt f vs.toList = onlyIf (vs.every p) (mapOpt g (vs.toList.map r))
  | .nil, _ => rfl
  | .cons v vs, h => by
    simp only [Vals.toList, mapOpt, List.map_cons, Vals.every, h v (by simp [Vals.toList]),
      mapOpt_onlyIf f g r p vs (fun u hu => h u (by simp [Vals.toList, hu]))]
    cases p v <;> cases vs.every p <;> cases g (r v) <;> simp [onlyIf]

/-- A component that is there. -/
theorem encComps_there (f : Field) (t : Ty) (cs : Comps) (v : Val) (vs : Vals) (hv : v ≠ .absent) :
    encComps (.cons f t cs) (.cons v vs) = match encComps cs vs with
      | none => none
      | some ps => if f.mode = .dflt v then some ps else match enc f.mode.isOpt t v with
        | none => none
        | some b => some ((setKey t v, b) :: ps) := by
  simp only [encComps]
  cases encComps cs vs with
  | none => rfl
  | some ps => cases v <;> first | exact absurd rfl hv | (cases f.mode <;> rfl)

mutual
/-- Encoding a value is encoding the texts its times are rewritten to, if they are texts a time can be written as. -/
theorem enc_rewritten : ∀ (t : Ty) (ine : Bool) (v : Val), t.timely = true → t.everyTime (fun _ s => oneDot s) v = true →
    enc ine t v = onlyIf (t.everyTime writable v) (enc ine t.asText (t.rewritten v))
  | .prim k a, ine, v, ht, h => by
    simp only [Ty.everyTime] at h ⊢
    simp only [enc, Ty.asText, Ty.rewritten, encPrim_rewritten k v h]
    cases k.everyTime writable v <;> simp [onlyIf]
  | .seq s a cs, ine, v, ht, h => by
    cases v <;> simp only [Ty.everyTime] at h ⊢ <;> try simp [onlyIf, enc, Ty.asText, Ty.rewritten]
    rename_i vs
    simp only [Comps.rewritten_names, encComps_rewritten cs vs ht h]
    cases cs.everyTime writable vs <;> simp [onlyIf]
  | .of s a t, ine, v, ht, h => by
    cases v <;> simp only [Ty.everyTime] at h ⊢ <;> try simp [onlyIf, enc, Ty.asText, Ty.rewritten]
    rename_i vs
    rw [Vals.every_iff, List.all_eq_true] at h
    have h1 := mapOpt_onlyIf (enc ine t) (enc ine t.asText) t.rewritten (t.everyTime writable) vs
      (fun v hv => enc_rewritten t ine v ht (h v hv))
    have e1 := enc_of_eq ine s a t vs
    have e2 := enc_of_eq ine s a t.asText (Vals.ofList (vs.toList.map t.rewritten))
    simp only [enc] at e1 e2
    rw [e1, e2, Vals.length_ofList, List.length_map, Vals.length_toList, Vals.toList_ofList, h1]
    cases vs.every (t.everyTime writable) <;> simp [onlyIf]
  | .choice a cs, ine, v, ht, h => by
    cases v <;> simp only [Ty.everyTime] at h ⊢ <;> try simp [onlyIf, enc, Ty.asText, Ty.rewritten]
    rename_i i v
    rw [encAlt_rewritten cs ine i v ht h]
    cases cs.everyTimeAlt writable i v <;> simp [onlyIf]
  | .bad _, ine, v, _, _ => by simp [enc, Ty.asText, onlyIf]
theorem encComps_rewritten : ∀ (cs : Comps) (vs : Vals), cs.timely = true → cs.everyTime (fun _ s => oneDot s) vs = true →
    encComps cs vs = onlyIf (cs.everyTime writable vs) (encComps cs.asText (cs.rewritten vs))
  | .nil, vs, _, _ => by cases vs <;> rfl
  | .cons f t cs, .nil, _, _ => rfl
  | .cons f t cs, .cons v vs, ht, h => by
    simp only [Comps.timely, Bool.and_eq_true] at ht
    simp only [Comps.everyTime, Bool.and_eq_true] at h ⊢
    by_cases ha : v = .absent
    · subst ha
      have h1 : t.everyTime writable .absent = true := by
        cases t with
        | prim k a => cases k <;> rfl
        | _ => rfl
      have h2 : t.rewritten .absent = .absent := (t.rewritten_absent _).2 rfl
      simp only [Comps.asText, Comps.rewritten, encComps, h1, h2, Bool.true_and, encComps_rewritten cs vs ht.1.2 h.2]
      cases cs.everyTime writable vs <;> cases f.mode <;> simp [onlyIf]
    · have hb : t.rewritten v ≠ .absent := fun hh => ha ((t.rewritten_absent v).1 hh)
      rw [encComps_there f t cs v vs ha]
      simp only [Comps.asText, Comps.rewritten]
      rw [encComps_there f t.asText cs.asText _ _ hb, encComps_rewritten cs vs ht.1.2 h.2, Ty.rewritten_setKey,
        enc_rewritten t f.mode.isOpt v ht.1.1 h.1]
      have hm : f.mode = .dflt (t.rewritten v) ↔ f.mode = .dflt v := by
        have h2 := ht.2
        cases hf : f.mode with
        | dflt d =>
          rw [hf] at h2
          rw [Ty.timeless_rewritten t v h2]
        | _ => simp
      by_cases hd : f.mode = .dflt v
      · have h1 : t.everyTime writable v = true := by
          have h2 := ht.2
          rw [hd] at h2
          exact Ty.timeless_every _ t v h2
        simp only [if_pos hd, if_pos (hm.2 hd), h1]
        cases cs.everyTime writable vs <;> simp [onlyIf]
      · simp only [if_neg hd, if_neg (fun hh => hd (hm.1 hh))]
        cases cs.everyTime writable vs <;> cases t.everyTime writable v <;> simp [onlyIf]
        cases encComps cs.asText (cs.rewritten vs) <;> rfl
theorem encAlt_rewritten : ∀ (cs : Comps) (ine : Bool) (i : Nat) (v : Val), cs.timely = true →
    cs.everyTimeAlt (fun _ s => oneDot s) i v = true →
    encAlt ine cs i v = onlyIf (cs.everyTimeAlt writable i v) (encAlt ine cs.asText i (cs.rewrittenAlt i v))
  | .nil, _, _, _, _, _ => by simp [encAlt, onlyIf, Comps.asText]
  | .cons _ t _, ine, 0, v, ht, h => by
    simp only [Comps.timely, Bool.and_eq_true] at ht
    exact enc_rewritten t ine v ht.1.1 h
  | .cons _ _ cs, ine, i + 1, v, ht, h => by
    simp only [Comps.timely, Bool.and_eq_true] at ht
    exact encAlt_rewritten cs ine i v ht.1.2 h
end

mutual
/-- Rewriting leaves a value as it is exactly if it leaves every time in it as it is. -/
theorem Ty.rewritten_eq : ∀ (t : Ty) (v : Val), t.everyTime (fun _ s => oneDot s) v = true →
    (t.rewritten v = v ↔ t.everyTime (fun _ s => plainFraction s) v = true)
  | .prim k a, v, h => by
    cases k <;> cases v <;> try simp [Ty.rewritten, Prim.rewritten, Ty.everyTime, Prim.everyTime]
    all_goals exact rewrittenTime_eq _ h
  | .seq s a cs, v, h => by
    cases v <;> simp only [Ty.everyTime, Ty.rewritten, Val.record.injEq] at h ⊢
    exact Comps.rewritten_eq cs _ h
  | .of s a t, v, h => by
    cases v <;> simp only [Ty.everyTime, Ty.rewritten, Val.list.injEq] at h ⊢
    rename_i vs
    rw [Vals.every_iff, List.all_eq_true] at h
    have h1 : Vals.ofList (vs.toList.map t.rewritten) = vs ↔ vs.toList.map t.rewritten = vs.toList :=
      ⟨fun hh => by rw [← Vals.toList_ofList (vs.toList.map t.rewritten), hh], fun hh => by rw [hh, Vals.ofList_toList]⟩
    rw [h1, Vals.every_iff, List.all_eq_true]
    have h2 : vs.toList.map t.rewritten = vs.toList ↔ ∀ v ∈ vs.toList, t.rewritten v = v := by
      generalize vs.toList = l
      induction l with
      | nil => simp
      | cons x l ih => simp [ih]
    rw [h2]
    exact ⟨fun hh v hv => (Ty.rewritten_eq t v (h v hv)).1 (hh v hv), fun hh v hv => (Ty.rewritten_eq t v (h v hv)).2 (hh v hv)⟩
  | .choice a cs, v, h => by
    cases v <;> simp only [Ty.everyTime, Ty.rewritten, Val.alt.injEq, true_and] at h ⊢
    exact Comps.rewrittenAlt_eq cs _ _ h
  | .bad _, v, _ => by simp [Ty.rewritten, Ty.everyTime]
theorem Comps.rewritten_eq : ∀ (cs : Comps) (vs : Vals), cs.everyTime (fun _ s => oneDot s) vs = true →
    (cs.rewritten vs = vs ↔ cs.everyTime (fun _ s => plainFraction s) vs = true)
  | .nil, vs, _ => by cases vs <;> simp [Comps.rewritten, Comps.everyTime]
  | .cons f t cs, .nil, _ => by simp [Comps.rewritten, Comps.everyTime]
  | .cons f t cs, .cons v vs, h => by
    simp only [Comps.everyTime, Bool.and_eq_true, Comps.rewritten, Vals.cons.injEq] at h ⊢
    rw [Ty.rewritten_eq t v h.1, Comps.rewritten_eq cs vs h.2]
theorem Comps.rewrittenAlt_eq : ∀ (cs : Comps) (i : Nat) (v : Val), cs.everyTimeAlt (fun _ s => oneDot s) i v = true →
    (cs.rewrittenAlt i v = v ↔ cs.everyTimeAlt (fun _ s => plainFraction s) i v = true)
  | .nil, _, _, _ => by simp [Comps.rewrittenAlt, Comps.everyTimeAlt]
  | .cons _ t _, 0, v, h => Ty.rewritten_eq t v h
  | .cons _ _ cs, i + 1, v, h => Comps.rewrittenAlt_eq cs i v h
end

/-! ## Lengths -/

theorem rewrittenTime_length (s : List Char) : (rewrittenTime s).length ≤ s.length ∧
    ((rewrittenTime s).length = s.length → rewrittenTime s = s) := by
  rcases dot_cases s with ⟨h1, h2⟩ | ⟨pre, f, rfl, h1, h2⟩
  · simp only [rewrittenTime, h2]
    exact ⟨Nat.le_refl _, fun _ => trivial⟩
  · have h3 : (pre ++ '.' :: f).takeWhile (· != '.') = pre := by
      rw [List.takeWhile_append_of_pos (by simpa using h1)]; simp
    have hk : (keptFraction f).length ≤ f.length ∧ ((keptFraction f).length = f.length → keptFraction f = f) := by
      have h4 := List.length_filter_le (· != '0') (f.take 4)
      have h5 : f.length = (f.take 4).length + (f.drop 4).length := by rw [← List.length_append, List.take_append_drop]
      simp only [keptFraction, List.length_append]
      refine ⟨by omega, fun h => ?_⟩
      have h6 : ((f.take 4).filter (· != '0')).length = (f.take 4).length := by omega
      rw [List.filter_eq_self.2 (List.length_filter_eq_length_iff.1 h6), List.take_append_drop]
    simp only [rewrittenTime, h2, h3, List.length_append]
    split
    · simp only [List.length_cons]
      exact ⟨by omega, fun h => by omega⟩
    · simp only [List.length_cons]
      exact ⟨by omega, fun h => by rw [hk.2 (by omega)]⟩

mutual
theorem Ty.asText_weight : ∀ (t : Ty) (v : Val), t.asText.weight v = t.weight v
  | .prim _ _, _ => rfl
  | .seq s a cs, v => by
    cases v <;> simp only [Ty.asText, Ty.weight]
    rw [Comps.asText_weight]
  | .of s a t, v => by
    cases v <;> simp only [Ty.asText, Ty.weight]
    rw [funext (Ty.asText_weight t)]
  | .choice a cs, v => by
    cases v <;> simp only [Ty.asText, Ty.weight]
    rw [Comps.asText_weightAlt]
  | .bad _, _ => rfl
theorem Comps.asText_weight : ∀ (cs : Comps) (vs : Vals), cs.asText.weight vs = cs.weight vs
  | .nil, vs => by cases vs <;> rfl
  | .cons f t cs, .nil => rfl
  | .cons f t cs, .cons v vs => by simp only [Comps.asText, Comps.weight, Ty.asText_weight t v, Comps.asText_weight cs vs]
theorem Comps.asText_weightAlt : ∀ (cs : Comps) (i : Nat) (v : Val), cs.asText.weightAlt i v = cs.weightAlt i v
  | .nil, _, _ => rfl
  | .cons _ t _, 0, v => Ty.asText_weight t v
  | .cons _ _ cs, i + 1, v => Comps.asText_weightAlt cs i v
end

theorem Vals.total_map (p : Val → Nat) (f : Val → Val) (h : ∀ v, p (f v) ≤ p v) : ∀ vs : Vals,
    (Vals.ofList (vs.toList.map f)).total p ≤ vs.total p
  | .nil => Nat.le_refl _
  | .cons v vs => by
    simp only [Vals.toList, List.map_cons, Vals.ofList, Vals.total]
    exact Nat.add_le_add (h v) (Vals.total_map p f h vs)

mutual
theorem Ty.rewritten_weight : ∀ (t : Ty) (v : Val), t.weight (t.rewritten v) ≤ t.weight v
  | .prim k a, v => by
    simp only [Ty.rewritten, Ty.weight]
    refine Nat.add_le_add_right ?_ _
    cases k <;> cases v <;> try exact Nat.le_refl _
    all_goals
      simp only [Prim.rewritten, Val.bulk]
      exact Nat.mul_le_mul_left 4 (rewrittenTime_length _).1
  | .seq s a cs, v => by
    cases v <;> simp only [Ty.rewritten, Ty.weight]
    all_goals first | exact Nat.le_refl _ | skip
    exact Nat.add_le_add_right (Comps.rewritten_weight cs _) _
  | .of s a t, v => by
    cases v <;> simp only [Ty.rewritten, Ty.weight]
    all_goals first | exact Nat.le_refl _ | skip
    exact Nat.add_le_add_right (Vals.total_map _ _ (Ty.rewritten_weight t) _) _
  | .choice a cs, v => by
    cases v <;> simp only [Ty.rewritten, Ty.weight]
    all_goals first | exact Nat.le_refl _ | skip
    exact Nat.add_le_add_right (Comps.rewritten_weightAlt cs _ _) _
  | .bad _, _ => by simp [Ty.rewritten]
theorem Comps.rewritten_weight : ∀ (cs : Comps) (vs : Vals), cs.weight (cs.rewritten vs) ≤ cs.weight vs
  | .nil, vs => by cases vs <;> exact Nat.le_refl _
  | .cons f t cs, .nil => Nat.le_refl _
  | .cons f t cs, .cons v vs => by
    simp only [Comps.rewritten, Comps.weight]
    exact Nat.add_le_add (Ty.rewritten_weight t v) (Comps.rewritten_weight cs vs)
theorem Comps.rewritten_weightAlt : ∀ (cs : Comps) (i : Nat) (v : Val), cs.weightAlt i (cs.rewrittenAlt i v) ≤ cs.weightAlt i v
  | .nil, _, _ => Nat.le_refl _
  | .cons _ t _, 0, v => Ty.rewritten_weight t v
  | .cons _ _ cs, i + 1, v => Comps.rewritten_weightAlt cs i v
end

/-- Length of a time. -/
def Prim.timeChars : Prim → Val → Nat
  | .utcTime, .str s => s.length
  | .generalizedTime, .str s => s.length
  | _, _ => 0

mutual
/-- Length of all times together. -/
def Ty.timeChars : Ty → Val → Nat
  | .prim k _, v => k.timeChars v
  | .seq _ _ cs, .record vs => cs.timeChars vs
  | .of _ _ t, .list vs => vs.total t.timeChars
  | .choice _ cs, .alt i v => cs.timeCharsAlt i v
  | _, _ => 0
def Comps.timeChars : Comps → Vals → Nat
  | .cons _ t cs, .cons v vs => t.timeChars v + cs.timeChars vs
  | _, _ => 0
def Comps.timeCharsAlt : Comps → Nat → Val → Nat
  | .cons _ t _, 0, v => t.timeChars v
  | .cons _ _ cs, i + 1, v => cs.timeCharsAlt i v
  | .nil, _, _ => 0
end

theorem Ty.timeChars_absent (t : Ty) : t.timeChars .absent = 0 := by
  cases t with
  | prim k a => cases k <;> rfl
  | _ => rfl

theorem Vals.total_sum (p : Val → Nat) : ∀ vs : Vals, vs.total p = (vs.toList.map p).sum
  | .nil => rfl
  | .cons v vs => by simp [Vals.total, Vals.toList, Vals.total_sum p vs]

theorem Vals.total_shrinks (p : Val → Nat) (f : Val → Val) (h : ∀ v, p (f v) ≤ p v ∧ (p (f v) = p v → f v = v)) : ∀ vs : Vals,
    (Vals.ofList (vs.toList.map f)).total p ≤ vs.total p ∧
      ((Vals.ofList (vs.toList.map f)).total p = vs.total p → Vals.ofList (vs.toList.map f) = vs)
  | .nil => ⟨Nat.le_refl _, fun _ => rfl⟩
  | .cons v vs => by
    have h1 := h v
    have h2 := Vals.total_shrinks p f h vs
    simp only [Vals.toList, List.map_cons, Vals.ofList, Vals.total, Vals.cons.injEq]
    exact ⟨by omega, fun he => ⟨h1.2 (by omega), h2.2 (by omega)⟩⟩

mutual
/-- Rewriting makes the times shorter or leaves everything as it is. -/
theorem Ty.rewritten_chars : ∀ (t : Ty) (v : Val), t.timeChars (t.rewritten v) ≤ t.timeChars v ∧
    (t.timeChars (t.rewritten v) = t.timeChars v → t.rewritten v = v)
  | .prim k a, v => by
    cases k <;> cases v <;> try exact ⟨Nat.le_refl _, fun _ => rfl⟩
    all_goals
      rename_i s
      have h := rewrittenTime_length s
      refine ⟨h.1, fun he => ?_⟩
      have h2 := h.2 he
      simp only [Ty.rewritten, Prim.rewritten, h2]
  | .seq s a cs, v => by
    cases v <;> simp only [Ty.rewritten, Ty.timeChars, Val.record.injEq]
    all_goals first | exact ⟨Nat.le_refl _, fun _ => trivial⟩ | skip
    exact Comps.rewritten_chars cs _
  | .of s a t, v => by
    cases v <;> simp only [Ty.rewritten, Ty.timeChars, Val.list.injEq]
    all_goals first | exact ⟨Nat.le_refl _, fun _ => trivial⟩ | skip
    exact Vals.total_shrinks _ _ (Ty.rewritten_chars t) _
  | .choice a cs, v => by
    cases v <;> simp only [Ty.rewritten, Ty.timeChars, Val.alt.injEq, true_and]
    all_goals first | exact ⟨Nat.le_refl _, fun _ => trivial⟩ | skip
    exact Comps.rewritten_charsAlt cs _ _
  | .bad _, v => by simp [Ty.rewritten]
theorem Comps.rewritten_chars : ∀ (cs : Comps) (vs : Vals), cs.timeChars (cs.rewritten vs) ≤ cs.timeChars vs ∧
    (cs.timeChars (cs.rewritten vs) = cs.timeChars vs → cs.rewritten vs = vs)
  | .nil, vs => by cases vs <;> exact ⟨Nat.le_refl _, fun _ => rfl⟩
  | .cons f t cs, .nil => ⟨Nat.le_refl _, fun _ => rfl⟩
  | .cons f t cs, .cons v vs => by
    have h1 := Ty.rewritten_chars t v
    have h2 := Comps.rewritten_chars cs vs
    simp only [Comps.rewritten, Comps.timeChars, Vals.cons.injEq]
    exact ⟨by omega, fun he => ⟨h1.2 (by omega), h2.2 (by omega)⟩⟩
theorem Comps.rewritten_charsAlt : ∀ (cs : Comps) (i : Nat) (v : Val), cs.timeCharsAlt i (cs.rewrittenAlt i v) ≤ cs.timeCharsAlt i v ∧
    (cs.timeCharsAlt i (cs.rewrittenAlt i v) = cs.timeCharsAlt i v → cs.rewrittenAlt i v = v)
  | .nil, _, _ => ⟨Nat.le_refl _, fun _ => rfl⟩
  | .cons _ t _, 0, v => Ty.rewritten_chars t v
  | .cons _ _ cs, i + 1, v => Comps.rewritten_charsAlt cs i v
end

theorem sum_zero {α : Type} (p : α → Nat) : ∀ l : List α, (∀ a ∈ l, p a = 0) → (l.map p).sum = 0
  | [], _ => rfl
  | a :: l, h => by simp [h a (by simp), sum_zero p l (fun b hb => h b (by simp [hb]))]

mutual
theorem Ty.timeless_chars : ∀ (t : Ty) (v : Val), t.timeless = true → t.timeChars v = 0
  | .prim k a, v, h => by cases k <;> simp [Ty.timeless, Ty.each] at h <;> cases v <;> rfl
  | .seq s a cs, v, h => by
    cases v <;> simp only [Ty.timeChars]
    exact Comps.timeless_chars cs _ (by simpa [Ty.timeless, Ty.each] using h)
  | .of s a t, v, h => by
    cases v <;> simp only [Ty.timeChars]
    rename_i vs
    have h' : t.timeless = true := by simpa [Ty.timeless, Ty.each] using h
    rw [Vals.total_sum]
    exact sum_zero _ _ (fun u _ => Ty.timeless_chars t u h')
  | .choice a cs, v, h => by
    cases v <;> simp only [Ty.timeChars]
    exact Comps.timeless_charsAlt cs _ _ (by simpa [Ty.timeless, Ty.each] using h)
  | .bad _, v, _ => by simp [Ty.timeChars]
theorem Comps.timeless_chars : ∀ (cs : Comps) (vs : Vals), cs.each (fun u => match u with
    | .prim .utcTime _ => false
    | .prim .generalizedTime _ => false
    | _ => true) = true → cs.timeChars vs = 0
  | .nil, vs, _ => by cases vs <;> rfl
  | .cons f t cs, .nil, _ => rfl
  | .cons f t cs, .cons v vs, h => by
    simp only [Comps.each, Bool.and_eq_true] at h
    simp only [Comps.timeChars, Ty.timeless_chars t v h.1, Comps.timeless_chars cs vs h.2]
theorem Comps.timeless_charsAlt : ∀ (cs : Comps) (i : Nat) (v : Val), cs.each (fun u => match u with
    | .prim .utcTime _ => false
    | .prim .generalizedTime _ => false
    | _ => true) = true → cs.timeCharsAlt i v = 0
  | .nil, _, _, _ => rfl
  | .cons _ t _, 0, v, h => by
    simp only [Comps.each, Bool.and_eq_true] at h
    exact Ty.timeless_chars t v h.1
  | .cons _ _ cs, i + 1, v, h => by
    simp only [Comps.each, Bool.and_eq_true] at h
    exact Comps.timeless_charsAlt cs i v h.2
end

mutual
/-- There are no times in what vanishes. -/
theorem Ty.vanish_chars : ∀ (t : Ty) (v : Val), t.timely = true → t.vanish v = true → t.timeChars v = 0
  | .prim k a, v, _, h => by simp [Ty.vanish] at h
  | .seq s a cs, v, ht, h => by
    cases v <;> simp only [Ty.timeChars, Ty.vanish] at h ⊢
    exact Comps.vanish_chars cs _ ht h
  | .of s a t, v, ht, h => by
    cases v <;> simp only [Ty.timeChars, Ty.vanish] at h ⊢
    rw [Vals.every_iff, List.all_eq_true] at h
    rw [Vals.total_sum]
    exact sum_zero _ _ (fun u hu => Ty.vanish_chars t u ht (h u hu))
  | .choice a cs, v, ht, h => by
    cases v <;> simp only [Ty.timeChars, Ty.vanish] at h ⊢
    exact Comps.vanish_charsAlt cs _ _ ht h
  | .bad _, v, _, _ => by simp [Ty.timeChars]
theorem Comps.vanish_chars : ∀ (cs : Comps) (vs : Vals), cs.timely = true → cs.vanish vs = true → cs.timeChars vs = 0
  | .nil, vs, _, _ => by cases vs <;> rfl
  | .cons f t cs, .nil, _, _ => rfl
  | .cons f t cs, .cons v vs, ht, h => by
    simp only [Comps.timely, Bool.and_eq_true] at ht
    simp only [Comps.vanish, Bool.and_eq_true] at h
    simp only [Comps.timeChars, Comps.vanish_chars cs vs ht.1.2 h.2, Nat.add_zero]
    have h1 := h.1
    have h2 := ht.2
    cases hf : f.mode <;> simp only [hf, Bool.or_eq_true, beq_iff_eq, Bool.false_eq_true] at h1 h2
    · rcases h1 with rfl | h1
      · exact t.timeChars_absent
      · exact Ty.vanish_chars t v ht.1.1 h1
    · exact Ty.timeless_chars t v h2
theorem Comps.vanish_charsAlt : ∀ (cs : Comps) (i : Nat) (v : Val), cs.timely = true → cs.vanishAlt i v = true →
    cs.timeCharsAlt i v = 0
  | .nil, _, _, _, _ => rfl
  | .cons _ t _, 0, v, ht, h => by
    simp only [Comps.timely, Bool.and_eq_true] at ht
    exact Ty.vanish_chars t v ht.1.1 h
  | .cons _ _ cs, i + 1, v, ht, h => by
    simp only [Comps.timely, Bool.and_eq_true] at ht
    exact Comps.vanish_charsAlt cs i v ht.1.2 h
end

theorem sum_filter {α : Type} (p : α → Nat) (q : α → Bool) : ∀ l : List α, (∀ a, q a = false → p a = 0) →
    ((l.filter q).map p).sum = (l.map p).sum
  | [], _ => rfl
  | a :: l, h => by
    cases hq : q a with
    | true => simp [hq, sum_filter p q l h]
    | false => simp [hq, h a hq, sum_filter p q l h]

theorem sum_all2 (r : Val → Val → Prop) (p : Val → Nat) (h : ∀ a b, r a b → p a = p b) : ∀ l m : List Val, all2 r l m →
    (l.map p).sum = (m.map p).sum
  | [], [], _ => rfl
  | [], _ :: _, h => h.elim
  | _ :: _, [], h => h.elim
  | a :: l, b :: m, hr => by simp [h a b hr.1, sum_all2 r p h l m hr.2]

mutual
/-- The same value has times of the same length. -/
theorem Ty.same_chars : ∀ (t : Ty) (ine : Bool) (v w : Val), t.timely = true → t.same ine v w → t.timeChars v = t.timeChars w
  | .prim k a, ine, v, w, _, h => by
    simp only [Ty.same] at h
    rw [h]
  | .seq s a cs, ine, v, w, ht, h => by
    cases v <;> cases w <;> simp only [Ty.same, Ty.timeChars] at h ⊢
    exact Comps.same_chars cs _ _ ht h
  | .of s a t, ine, v, w, ht, h => by
    cases v <;> cases w <;> simp only [Ty.same, Ty.timeChars] at h ⊢
    obtain ⟨us, h1, h2⟩ := h
    rw [Vals.total_sum, Vals.total_sum, ← sum_all2 _ _ (fun a b hab => Ty.same_chars t ine a b ht hab) _ _ h2,
      sum_filter _ _ us (fun u hu => by
        simp only [Bool.not_eq_false', Bool.and_eq_true] at hu
        exact Ty.vanish_chars t u ht hu.2)]
    cases s
    · simp only [Bool.false_eq_true, if_false] at h1
      rw [h1]
    · simp only [if_true] at h1
      exact (h1.map _).sum_nat.symm
  | .choice a cs, ine, v, w, ht, h => by
    cases v <;> cases w <;> simp only [Ty.same, Ty.timeChars] at h ⊢
    obtain ⟨rfl, h2⟩ := h
    exact Comps.same_charsAlt cs _ _ _ _ ht h2
  | .bad _, _, _, _, _, h => by simp [Ty.same] at h
theorem Comps.same_chars : ∀ (cs : Comps) (vs ws : Vals), cs.timely = true → cs.same vs ws → cs.timeChars vs = cs.timeChars ws
  | .nil, vs, ws, _, h => by cases vs <;> cases ws <;> rfl
  | .cons f t cs, .nil, ws, _, h => by simp [Comps.same] at h
  | .cons f t cs, .cons v vs, .nil, _, h => by simp [Comps.same] at h
  | .cons f t cs, .cons v vs, .cons w ws, ht, h => by
    simp only [Comps.timely, Bool.and_eq_true] at ht
    simp only [Comps.same] at h
    simp only [Comps.timeChars, Comps.same_chars cs vs ws ht.1.2 h.2, Nat.add_right_cancel_iff]
    have h1 := h.1
    cases hf : f.mode <;> simp only [hf] at h1
    · exact Ty.same_chars t _ v w ht.1.1 h1
    · rcases h1 with ⟨rfl, rfl⟩ | ⟨h1, rfl⟩ | ⟨-, h1⟩
      · rfl
      · rw [t.timeChars_absent, Ty.vanish_chars t v ht.1.1 h1]
      · exact Ty.same_chars t _ v w ht.1.1 h1
    · rcases h1 with ⟨rfl, rfl⟩ | ⟨-, h1⟩
      · rfl
      · exact Ty.same_chars t _ v w ht.1.1 h1
theorem Comps.same_charsAlt : ∀ (cs : Comps) (ine : Bool) (i : Nat) (v w : Val), cs.timely = true → cs.sameAlt ine i v w →
    cs.timeCharsAlt i v = cs.timeCharsAlt i w
  | .nil, _, _, _, _, _, _ => rfl
  | .cons _ t _, ine, 0, v, w, ht, h => by
    simp only [Comps.timely, Bool.and_eq_true] at ht
    exact Ty.same_chars t ine v w ht.1.1 h
  | .cons _ _ cs, ine, i + 1, v, w, ht, h => by
    simp only [Comps.timely, Bool.and_eq_true] at ht
    exact Comps.same_charsAlt cs ine i v w ht.1.2 h
end

theorem dropZeros_snoc (c : Char) (hc : c ≠ '0') : ∀ (k : Nat) (f : List Char), dropZeros k (f ++ [c]) = dropZeros k f ++ [c]
  | 0, f => rfl
  | k + 1, [] => by cases k <;> simp [dropZeros, hc]
  | k + 1, d :: f => by
    simp only [List.cons_append, dropZeros, dropZeros_snoc c hc k f]
    split <;> rfl

theorem keptFraction_eq (f : List Char) : keptFraction f = dropZeros 4 f := (dropZeros_eq 4 f).symm

end Asn1
end Verif
