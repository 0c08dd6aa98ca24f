import Verif.Asn1.PrimLemmas

/-! Tag-length-value elements read back. -/

namespace Verif
namespace Asn1

theorem ofBits_bits (c : Cls) : Cls.ofBits c.bits = c := by cases c <;> rfl

theorem bits_lt (c : Cls) : c.bits < 4 := by cases c <;> decide

theorem readTag_encTag (cls : Cls) (c : Bool) (num : Nat) (rest : Bytes) :
    readTag (encTag cls c num ++ rest) = some (cls, c, num, rest) := by
  have hb := bits_lt cls
  unfold encTag
  cases c
  · simp only [Bool.false_eq_true, if_false, Nat.add_zero]
    split
    · rename_i hn
      have h1 := toNat_ofNat (cls.bits * 64 + num) (by omega)
      have e1 : (cls.bits * 64 + num) / 64 = cls.bits := by omega
      have e2 : (cls.bits * 64 + num) / 32 % 2 = 0 := by omega
      have e3 : (cls.bits * 64 + num) % 32 = num := by omega
      simp only [List.cons_append, List.nil_append, readTag, h1, e1, e2, e3, ofBits_bits, if_pos hn]
      rfl
    · have h1 := toNat_ofNat (cls.bits * 64 + 31) (by omega)
      have e1 : (cls.bits * 64 + 31) / 64 = cls.bits := by omega
      have e2 : (cls.bits * 64 + 31) / 32 % 2 = 0 := by omega
      have e3 : (cls.bits * 64 + 31) % 32 = 31 := by omega
      simp only [List.cons_append, readTag, h1, e1, e2, e3, ofBits_bits, readB128_b128]
      rfl
  · simp only [if_true]
    split
    · rename_i hn
      have h1 := toNat_ofNat (cls.bits * 64 + 32 + num) (by omega)
      have e1 : (cls.bits * 64 + 32 + num) / 64 = cls.bits := by omega
      have e2 : (cls.bits * 64 + 32 + num) / 32 % 2 = 1 := by omega
      have e3 : (cls.bits * 64 + 32 + num) % 32 = num := by omega
      simp only [List.cons_append, List.nil_append, readTag, h1, e1, e2, e3, ofBits_bits, if_pos hn]
      rfl
    · have h1 := toNat_ofNat (cls.bits * 64 + 32 + 31) (by omega)
      have e1 : (cls.bits * 64 + 32 + 31) / 64 = cls.bits := by omega
      have e2 : (cls.bits * 64 + 32 + 31) / 32 % 2 = 1 := by omega
      have e3 : (cls.bits * 64 + 32 + 31) % 32 = 31 := by omega
      simp only [List.cons_append, readTag, h1, e1, e2, e3, ofBits_bits, readB128_b128]
      rfl

theorem encTag_ne_nil (cls : Cls) (c : Bool) (num : Nat) : encTag cls c num ≠ [] := by
  unfold encTag
  split <;> split <;> simp

theorem beNat_natBytes (fuel n acc : Nat) (h : n ≤ fuel) :
    beNat (natBytes fuel n) acc = acc * 256 ^ (natBytes fuel n).length + n := by
  induction fuel generalizing n with
  | zero =>
    have : n = 0 := by omega
    subst this; simp [natBytes, beNat]
  | succ fuel ih =>
    unfold natBytes
    split
    · subst_vars; simp [beNat]
    · have h1 := toNat_ofNat (n % 256) (by omega)
      simp only [beNat_append, beNat, h1, ih (n / 256) (by omega), List.length_append, List.length_cons,
        List.length_nil, Nat.pow_succ, Nat.zero_add]
      rw [Nat.add_mul, Nat.mul_assoc]
      omega

theorem readLen_encLen (n : Nat) (l rest : Bytes) (h : encLen n = some l) :
    readLen (l ++ rest) = some (n, rest) := by
  unfold encLen at h
  split at h
  · rename_i hn
    simp only [Option.some.injEq] at h; subst h
    have h1 := toNat_ofNat n (by omega)
    simp only [List.cons_append, List.nil_append, readLen, h1, if_pos hn]
  · rename_i hn
    simp only [] at h
    split at h
    · simp at h
    · rename_i hl
      simp only [Option.some.injEq] at h; subst h
      have hv := beNat_natBytes n n 0 (Nat.le_refl _)
      have hpos : 0 < (natBytes n n).length := by
        cases hs : natBytes n n with
        | nil => rw [hs] at hv; simp [beNat] at hv; omega
        | cons => simp
      generalize natBytes n n = s at *
      have h1 := toNat_ofNat (128 + s.length) (by omega)
      simp only [List.cons_append, readLen, h1]
      have e : 128 + s.length - 128 = s.length := by omega
      rw [if_neg (by omega), if_neg (by omega), e, if_neg (by simp)]
      simp [hv]

/-- `b` is one element, `x`, whatever follows it. -/
def IsTLV (b : Bytes) (x : TLV) : Prop := b ≠ [] ∧ ∀ rest, readTLV (b ++ rest) = some (x, rest)

/-- An encoded element reads back. -/
theorem isTLV_tlv (t : Tag) (isC : Bool) (content b : Bytes) (h : tlv t isC content = some b) :
    IsTLV b ⟨t.cls, t.constructed || isC, t.num, content, b⟩ := by
  unfold tlv at h
  cases hl : encLen content.length with
  | none => simp [hl] at h
  | some l =>
    simp only [hl, Option.map_some, Option.some.injEq] at h
    subst h
    refine ⟨by simp [encTag_ne_nil], fun rest => ?_⟩
    unfold readTLV
    have h1 := readTag_encTag t.cls (t.constructed || isC) t.num (l ++ content ++ rest)
    rw [List.append_assoc, h1]
    simp only []
    rw [List.append_assoc l, readLen_encLen _ _ _ hl]
    simp only []
    rw [if_neg (by simp)]
    generalize encTag t.cls (t.constructed || isC) t.num = T
    have e : (T ++ (l ++ (content ++ rest))).length - ((content ++ rest).length - content.length) =
        (T ++ (l ++ content)).length := by
      simp; omega
    have e2 : T ++ (l ++ (content ++ rest)) = (T ++ (l ++ content)) ++ rest := by simp
    have e3 : (T ++ (l ++ (content ++ rest))).take ((T ++ (l ++ (content ++ rest))).length -
        ((content ++ rest).length - content.length)) = T ++ (l ++ content) := by
      rw [e, e2, List.take_left' rfl]
    rw [e3]
    simp

/-! ## What `readTLV` consumes -/

theorem readB128_suffix (b : Bytes) (acc n : Nat) (r : Bytes) (h : readB128 b acc = some (n, r)) :
    ∃ p, b = p ++ r ∧ p ≠ [] ∧ ∀ s, readB128 (b ++ s) acc = some (n, r ++ s) := by
  induction b generalizing acc with
  | nil => simp [readB128] at h
  | cons x b ih =>
    simp only [readB128] at h
    split at h
    · rename_i hx
      simp only [Option.some.injEq, Prod.mk.injEq] at h
      obtain ⟨h1, h2⟩ := h
      subst h1; subst h2
      exact ⟨[x], rfl, by simp, fun s => by simp [readB128, hx]⟩
    · rename_i hx
      obtain ⟨p, hp, _, hs⟩ := ih _ h
      exact ⟨x :: p, by rw [hp]; rfl, by simp, fun s => by simp [readB128, hx, hs]⟩

theorem readTag_suffix (b : Bytes) (cls : Cls) (c : Bool) (n : Nat) (r : Bytes)
    (h : readTag b = some (cls, c, n, r)) :
    ∃ p, b = p ++ r ∧ p ≠ [] ∧ ∀ s, readTag (b ++ s) = some (cls, c, n, r ++ s) := by
  cases b with
  | nil => simp [readTag] at h
  | cons x b =>
    simp only [readTag] at h
    split at h
    · rename_i hx
      simp only [Option.some.injEq, Prod.mk.injEq] at h
      obtain ⟨h1, h2, h3, h4⟩ := h
      subst h1; subst h2; subst h3; subst h4
      exact ⟨[x], rfl, by simp, fun s => by simp [readTag, hx]⟩
    · rename_i hx
      split at h
      · rename_i m rest hr
        simp only [Option.some.injEq, Prod.mk.injEq] at h
        obtain ⟨h1, h2, h3, h4⟩ := h
        subst h1; subst h2; subst h3; subst h4
        obtain ⟨p, hp, _, hs⟩ := readB128_suffix _ _ _ _ hr
        exact ⟨x :: p, by rw [hp]; rfl, by simp, fun s => by simp [readTag, hx, hs]⟩
      · simp at h

theorem readLen_suffix (b : Bytes) (n : Nat) (r : Bytes) (h : readLen b = some (n, r)) :
    ∃ p, b = p ++ r ∧ p ≠ [] ∧ ∀ s, readLen (b ++ s) = some (n, r ++ s) := by
  cases b with
  | nil => simp [readLen] at h
  | cons x b =>
    simp only [readLen] at h
    split at h
    · rename_i hx
      simp only [Option.some.injEq, Prod.mk.injEq] at h
      obtain ⟨h1, h2⟩ := h
      subst h1; subst h2
      exact ⟨[x], rfl, by simp, fun s => by simp [readLen, hx]⟩
    · rename_i hx
      split at h
      · simp at h
      · rename_i hx2
        split at h
        · simp at h
        · rename_i hl
          simp only [Option.some.injEq, Prod.mk.injEq] at h
          obtain ⟨h1, h2⟩ := h
          subst h1; subst h2
          refine ⟨x :: b.take (x.toNat - 128), by simp, by simp, fun s => ?_⟩
          simp only [List.cons_append, readLen, if_neg hx, if_neg hx2]
          rw [if_neg (by simp; omega)]
          rw [List.take_append_of_le_length (by omega), List.drop_append_of_le_length (by omega)]

theorem readB128_take (b : Bytes) (acc n : Nat) (r : Bytes) (h : readB128 b acc = some (n, r)) :
    ∃ p, b = p ++ r ∧ p ≠ [] ∧ ∀ s, readB128 (p ++ s) acc = some (n, s) := by
  induction b generalizing acc with
  | nil => simp [readB128] at h
  | cons x b ih =>
    simp only [readB128] at h
    split at h
    · rename_i hx
      simp only [Option.some.injEq, Prod.mk.injEq] at h
      obtain ⟨h1, h2⟩ := h
      subst h1; subst h2
      exact ⟨[x], rfl, by simp, fun s => by simp [readB128, hx]⟩
    · rename_i hx
      obtain ⟨p, hp, _, hs⟩ := ih _ h
      exact ⟨x :: p, by rw [hp]; rfl, by simp, fun s => by simp [readB128, hx, hs]⟩

theorem readTag_take (b : Bytes) (cls : Cls) (c : Bool) (n : Nat) (r : Bytes)
    (h : readTag b = some (cls, c, n, r)) :
    ∃ p, b = p ++ r ∧ p ≠ [] ∧ ∀ s, readTag (p ++ s) = some (cls, c, n, s) := by
  cases b with
  | nil => simp [readTag] at h
  | cons x b =>
    simp only [readTag] at h
    split at h
    · rename_i hx
      simp only [Option.some.injEq, Prod.mk.injEq] at h
      obtain ⟨h1, h2, h3, h4⟩ := h
      subst h1; subst h2; subst h3; subst h4
      exact ⟨[x], rfl, by simp, fun s => by simp [readTag, hx]⟩
    · rename_i hx
      split at h
      · rename_i m rest hr
        simp only [Option.some.injEq, Prod.mk.injEq] at h
        obtain ⟨h1, h2, h3, h4⟩ := h
        subst h1; subst h2; subst h3; subst h4
        obtain ⟨p, hp, _, hs⟩ := readB128_take _ _ _ _ hr
        exact ⟨x :: p, by rw [hp]; rfl, by simp, fun s => by simp [readTag, hx, hs]⟩
      · simp at h

theorem readLen_take (b : Bytes) (n : Nat) (r : Bytes) (h : readLen b = some (n, r)) :
    ∃ p, b = p ++ r ∧ p ≠ [] ∧ ∀ s, readLen (p ++ s) = some (n, s) := by
  cases b with
  | nil => simp [readLen] at h
  | cons x b =>
    simp only [readLen] at h
    split at h
    · rename_i hx
      simp only [Option.some.injEq, Prod.mk.injEq] at h
      obtain ⟨h1, h2⟩ := h
      subst h1; subst h2
      exact ⟨[x], rfl, by simp, fun s => by simp [readLen, hx]⟩
    · rename_i hx
      split at h
      · simp at h
      · rename_i hx2
        split at h
        · simp at h
        · rename_i hl
          simp only [Option.some.injEq, Prod.mk.injEq] at h
          obtain ⟨h1, h2⟩ := h
          subst h1; subst h2
          refine ⟨x :: b.take (x.toNat - 128), by simp, by simp, fun s => ?_⟩
          have hlen : (b.take (x.toNat - 128)).length = x.toNat - 128 := by simp; omega
          simp only [List.cons_append, readLen, if_neg hx, if_neg hx2]
          rw [if_neg (by simp; omega)]
          rw [List.take_left' hlen, List.drop_left' hlen]

/-- A successful read consumes a non-empty prefix, which is the element's octets; more
input after it changes nothing. -/
theorem readTLV_suffix (b : Bytes) (x : TLV) (r : Bytes) (h : readTLV b = some (x, r)) :
    b = x.raw ++ r ∧ x.raw ≠ [] ∧ (∀ s, readTLV (b ++ s) = some (x, r ++ s)) ∧
      x.content.length < x.raw.length := by
  unfold readTLV at h
  split at h
  · simp at h
  · rename_i cls c n r1 ht
    split at h
    · simp at h
    · rename_i len r2 hl
      split at h
      · simp at h
      · rename_i hlen
        simp only [Option.some.injEq, Prod.mk.injEq] at h
        obtain ⟨h1, h2⟩ := h
        obtain ⟨p, hp, hpn, hps⟩ := readTag_suffix _ _ _ _ _ ht
        obtain ⟨q, hq, hqn, hqs⟩ := readLen_suffix _ _ _ hl
        have hb : b = (p ++ q ++ r2.take len) ++ r2.drop len := by
          rw [hp, hq]; simp
        have hraw : b.take (b.length - (r2.length - len)) = p ++ q ++ r2.take len := by
          have : b.length - (r2.length - len) = (p ++ q ++ r2.take len).length := by
            rw [hp, hq]; simp; omega
          rw [this, hb, List.take_left']
          rfl
        have hpl : 0 < p.length := List.length_pos_iff.2 hpn
        subst h1; subst h2
        refine ⟨?_, ?_, ?_, ?_⟩
        · simp only [hraw]; exact hb
        · simp only [hraw]; simp [hpn]
        · intro s
          unfold readTLV
          rw [hps s]
          simp only []
          rw [hqs s]
          simp only []
          rw [if_neg (by simp; omega)]
          have e : (b ++ s).length - ((r2 ++ s).length - len) = b.length - (r2.length - len) := by
            rw [hp, hq]; simp; omega
          rw [e, List.take_append_of_le_length (by omega), List.take_append_of_le_length (by omega),
            List.drop_append_of_le_length (by omega)]
        · simp only [hraw]; simp; omega

/-- The octets of an element read as that element. -/
theorem readTLV_raw (b : Bytes) (x : TLV) (r : Bytes) (h : readTLV b = some (x, r)) : readTLV x.raw = some (x, []) := by
  obtain ⟨hb, hne, hext, hcl⟩ := readTLV_suffix b x r h
  unfold readTLV at h
  split at h
  · simp at h
  · rename_i cls c n r1 ht
    split at h
    · simp at h
    · rename_i len r2 hl
      split at h
      · simp at h
      · rename_i hlen
        simp only [Option.some.injEq, Prod.mk.injEq] at h
        obtain ⟨h1, h2⟩ := h
        obtain ⟨p, hp, hpn, hps⟩ := readTag_take _ _ _ _ _ ht
        obtain ⟨q, hq, hqn, hqs⟩ := readLen_take _ _ _ hl
        have hb2 : b = (p ++ q ++ r2.take len) ++ r2.drop len := by
          rw [hp, hq]; simp
        have hraw : x.raw = p ++ q ++ r2.take len := by
          have h3 : x.raw ++ r = (p ++ q ++ r2.take len) ++ r := by
            rw [← hb, ← h2]; exact hb2
          exact List.append_cancel_right h3
        have e1 := hps (q ++ r2.take len)
        have e2 := hqs (r2.take len)
        rw [hraw]
        unfold readTLV
        rw [List.append_assoc, e1]
        simp only []
        rw [e2]
        simp only []
        rw [if_neg (by simp; omega)]
        have hlt : (r2.take len).length = len := by simp; omega
        subst h1
        simp only [Option.some.injEq, Prod.mk.injEq]
        refine ⟨?_, by simp⟩
        rw [TLV.mk.injEq]
        refine ⟨rfl, rfl, rfl, List.take_of_length_le (by omega), ?_⟩
        have hz : (r2.take len).length - len = 0 := by omega
        rw [hz, Nat.sub_zero, List.take_length]
        simpa using hraw.symm

theorem isTLV_of_read (b : Bytes) (x : TLV) (h : readTLV b = some (x, [])) : IsTLV b x ∧ x.raw = b := by
  obtain ⟨h1, h2, h3, _⟩ := readTLV_suffix b x [] h
  rw [List.append_nil] at h1
  exact ⟨⟨by rw [h1]; exact h2, fun rest => by simpa using h3 rest⟩, h1.symm⟩

theorem IsTLV.raw {b : Bytes} {x : TLV} (h : IsTLV b x) : x.raw = b := by
  have := h.2 []
  rw [List.append_nil] at this
  exact (isTLV_of_read b x this).2

theorem IsTLV.read {b : Bytes} {x : TLV} (h : IsTLV b x) : readTLV b = some (x, []) := by
  have := h.2 []
  rwa [List.append_nil] at this

/-! ## Sequences of elements -/

theorem parseTLVs_fuel (b : Bytes) (f g : Nat) (h : b.length ≤ f) (hg : b.length ≤ g) :
    parseTLVs f b = parseTLVs g b := by
  induction f generalizing b g with
  | zero =>
    have : b = [] := List.length_eq_zero_iff.1 (by omega)
    subst this; cases g <;> rfl
  | succ f ih =>
    cases b with
    | nil => cases g <;> rfl
    | cons x b =>
      cases g with
      | zero => simp at hg
      | succ g =>
        simp only [parseTLVs]
        cases hr : readTLV (x :: b) with
        | none => rfl
        | some p =>
          obtain ⟨y, rest⟩ := p
          obtain ⟨h1, h2, _⟩ := readTLV_suffix _ _ _ hr
          have hlen : rest.length < (x :: b).length := by
            rw [h1]; simp; exact List.length_pos_iff.2 h2
          simp only []
          rw [ih rest g (by simp at h hlen ⊢; omega) (by simp at hg hlen ⊢; omega)]

theorem items_nil : items [] = some [] := rfl

theorem items_cons {b : Bytes} {x : TLV} (h : IsTLV b x) (c : Bytes) (ys : List TLV) (hc : items c = some ys) :
    items (b ++ c) = some (x :: ys) := by
  obtain ⟨hne, hr⟩ := h
  cases b with
  | nil => exact absurd rfl hne
  | cons y b =>
    have hr := hr c
    unfold items at *
    simp only [List.cons_append, List.length_cons] at *
    rw [parseTLVs, hr]
    simp only []
    rw [parseTLVs_fuel c _ c.length (by simp) (Nat.le_refl _), hc]

/-! ## Explicit tags -/

/-- Wrapping in further tags is undone by `unwrap`. -/
theorem wrap_unwrap (isC : Bool) (ts : TagSet) (us : List Tag) (b b' : Bytes) (y z : TLV)
    (hts : ts.all (fun u => (u.constructed || isC) && u.cls != .universal) = true)
    (hy : IsTLV b y) (hu : unwrap us y = some z) (hne : us ≠ []) (hh : us.head? = some u)
    (hhas : y.has u = true) (hw : wrap isC ts b = some b') :
    ∃ x, IsTLV b' x ∧ unwrap (ts.reverse ++ us) x = some z ∧
      (∀ l, (ts.reverse ++ us).head? = some l → x.has l = true) := by
  induction ts generalizing us b y u with
  | nil =>
    simp only [wrap, Option.some.injEq] at hw; subst hw
    refine ⟨y, hy, by simpa using hu, fun l hl => ?_⟩
    simp only [List.reverse_nil, List.nil_append, hh, Option.some.injEq] at hl
    subst hl; exact hhas
  | cons t ts ih =>
    simp only [wrap] at hw
    simp only [List.all_cons, Bool.and_eq_true] at hts
    cases h1 : tlv t isC b with
    | none => simp [h1] at hw
    | some b1 =>
      simp only [h1, Option.bind_some] at hw
      have hx := isTLV_tlv t isC b b1 h1
      cases us with
      | nil => exact absurd rfl hne
      | cons u' us =>
        have hun : unwrap (t :: u' :: us) ⟨t.cls, t.constructed || isC, t.num, b, b1⟩ = some z := by
          simp only [unwrap, TLV.has, beq_self_eq_true, Bool.true_and, hts.1.1, hts.1.2, if_true]
          rw [hy.read]
          exact hu
        obtain ⟨x, e1, e2, e3⟩ := ih (u := t) (t :: u' :: us) b1 _ hts.2 hx hun (by simp) rfl
          (by simp [TLV.has]) hw
        refine ⟨x, e1, ?_, ?_⟩
        · simpa using e2
        · simpa using e3

/-- Wrapping contents in a whole tag set. -/
theorem wrap_spec (isC : Bool) (t : Tag) (ts : TagSet) (content b : Bytes)
    (hts : ts.all (fun u => (u.constructed || isC) && u.cls != .universal) = true)
    (hw : wrap isC (t :: ts) content = some b) :
    ∃ x y, IsTLV b x ∧ unwrap (t :: ts).reverse x = some y ∧ y.content = content ∧
      y.constructed = (t.constructed || isC) ∧ (∀ l, (t :: ts).getLast? = some l → x.has l = true) := by
  simp only [wrap] at hw
  cases h1 : tlv t isC content with
  | none => simp [h1] at hw
  | some b1 =>
    simp only [h1, Option.bind_some] at hw
    have hx := isTLV_tlv t isC content b1 h1
    have hun : unwrap [t] ⟨t.cls, t.constructed || isC, t.num, content, b1⟩ = some ⟨t.cls, t.constructed || isC, t.num, content, b1⟩ := by
      simp [unwrap, TLV.has]
    obtain ⟨x, e1, e2, e3⟩ := wrap_unwrap (u := t) isC ts [t] b1 b _ _ hts hx hun (by simp) rfl (by simp [TLV.has]) hw
    refine ⟨x, ⟨t.cls, t.constructed || isC, t.num, content, b1⟩, e1, ?_, rfl, rfl, ?_⟩
    · simpa using e2
    · intro l hl
      apply e3
      rw [← List.head?_reverse] at hl
      simpa using hl

end Asn1
end Verif
