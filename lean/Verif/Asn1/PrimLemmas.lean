import Verif.Spec.Asn1

/-! Contents octets of primitive values decode to the value they encode. -/

namespace Verif
namespace Asn1

theorem toNat_ofNat (n : Nat) (h : n < 256) : (UInt8.ofNat n).toNat = n := by
  simp [Nat.mod_eq_of_lt h]

theorem beNat_append (a b : Bytes) (acc : Nat) : beNat (a ++ b) acc = beNat b (beNat a acc) := by
  induction a generalizing acc with
  | nil => rfl
  | cons x a ih => simp [beNat, ih]

theorem beNat_beBytes (n v acc : Nat) : beNat (beBytes n v) acc = acc * 256 ^ n + v % 256 ^ n := by
  induction n generalizing v with
  | zero => simp [beBytes, beNat, Nat.mod_one]
  | succ n ih =>
    have hm : v % 256 ^ (n + 1) = v % 256 + 256 * (v / 256 % 256 ^ n) := by
      rw [Nat.pow_succ, Nat.mul_comm, Nat.mod_mul]
    simp only [beBytes, beNat_append, ih, beNat, toNat_ofNat _ (Nat.mod_lt v (by decide : 256 > 0))]
    rw [hm, Nat.pow_succ, Nat.add_mul, Nat.mul_assoc]
    omega

theorem beBytes_length (n v : Nat) : (beBytes n v).length = n := by
  induction n generalizing v with
  | zero => rfl
  | succ n ih => simp [beBytes, ih]

theorem beNat_lt (b : Bytes) (acc : Nat) : beNat b acc < (acc + 1) * 256 ^ b.length := by
  induction b generalizing acc with
  | nil => simp [beNat]
  | cons x b ih =>
    have hx := x.toNat_lt
    refine Nat.lt_of_lt_of_le (ih _) ?_
    simp only [List.length_cons, Nat.pow_succ]
    calc (acc * 256 + x.toNat + 1) * 256 ^ b.length ≤ ((acc + 1) * 256) * 256 ^ b.length :=
          Nat.mul_le_mul_right _ (by omega)
      _ = (acc + 1) * (256 ^ b.length * 256) := by
          rw [Nat.mul_assoc, Nat.mul_comm 256]

/-- Head of a big-endian byte string: it is below 128 iff the value is in the lower half. -/
theorem beNat_head (h : UInt8) (b : Bytes) :
    h.toNat < 128 ↔ 2 * beNat (h :: b) 0 < 256 ^ (h :: b).length := by
  have e : ∀ (b : Bytes) acc, beNat b acc = acc * 256 ^ b.length + beNat b 0 := by
    intro b
    induction b with
    | nil => simp [beNat]
    | cons x b ih =>
      intro acc
      simp only [beNat]
      rw [ih (acc * 256 + x.toNat), ih (0 * 256 + x.toNat)]
      simp only [List.length_cons, Nat.pow_succ, Nat.add_mul, Nat.zero_mul, Nat.zero_add]
      rw [Nat.mul_assoc, Nat.mul_comm 256]
      omega
  have hlt := beNat_lt b 0
  simp only [beNat, Nat.zero_mul, Nat.zero_add, List.length_cons, Nat.pow_succ] at *
  rw [e b h.toNat]
  generalize 256 ^ b.length = P at *
  constructor
  · intro hh
    have : (h.toNat + 1) * P ≤ 128 * P := Nat.mul_le_mul_right _ hh
    rw [Nat.add_mul] at this
    omega
  · intro hh
    by_cases hc : h.toNat < 128
    · exact hc
    · have : 128 * P ≤ h.toNat * P := Nat.mul_le_mul_right _ (by omega)
      omega

theorem bitLen_lt (n : Nat) : n < 2 ^ bitLen n := by
  unfold bitLen
  split
  · subst_vars; decide
  · exact Nat.lt_log2_self

theorem encInt_ne_nil (v : Int) : encInt v ≠ [] := by
  intro h
  have := congrArg List.length h
  simp [encInt, beBytes_length] at this

/-- INTEGER contents decode to the encoded number. -/
theorem decInt_encInt (v : Int) : decInt (encInt v) = v := by
  have hlen : (encInt v).length = bitLen v.natAbs / 8 + 1 := by simp [encInt, beBytes_length]
  have hval : beNat (encInt v) 0 = (v % ((256 ^ (bitLen v.natAbs / 8 + 1) : Nat) : Int)).toNat := by
    unfold encInt
    simp only [beNat_beBytes]
    rw [Nat.zero_mul, Nat.zero_add, Nat.mod_eq_of_lt]
    have := Int.emod_lt_of_pos v (show (0:Int) < ((256 ^ (bitLen v.natAbs / 8 + 1) : Nat) : Int) by
      exact_mod_cast Nat.pow_pos (by decide))
    have h0 := Int.emod_nonneg v (show ((256 ^ (bitLen v.natAbs / 8 + 1) : Nat) : Int) ≠ 0 by
      have : 0 < 256 ^ (bitLen v.natAbs / 8 + 1) := Nat.pow_pos (by decide)
      omega)
    omega
  have hb : 2 * v.natAbs < 256 ^ (bitLen v.natAbs / 8 + 1) := by
    have h1 := bitLen_lt v.natAbs
    have h2 : 2 ^ (bitLen v.natAbs + 1) ≤ 2 ^ (8 * (bitLen v.natAbs / 8 + 1)) :=
      Nat.pow_le_pow_right (by decide) (by omega)
    rw [Nat.pow_mul] at h2
    rw [Nat.pow_succ] at h2
    have : (2:Nat) ^ 8 = 256 := by decide
    rw [this] at h2
    omega
  generalize hn : bitLen v.natAbs / 8 + 1 = n at *
  cases hE : encInt v with
  | nil => exact absurd hE (encInt_ne_nil v)
  | cons h t =>
    have hh := beNat_head h t
    rw [hE] at hlen hval
    simp only [decInt]
    rw [hlen] at hh ⊢
    rw [hval] at hh ⊢
    generalize 256 ^ n = P at *
    by_cases hv : 0 ≤ v
    · have : v % (P : Int) = v := Int.emod_eq_of_lt hv (by omega)
      rw [this] at hh ⊢
      rw [if_pos (hh.2 (by omega))]
      omega
    · have : v % (P : Int) = v + P := by
        rw [← Int.add_emod_right, Int.emod_eq_of_lt] <;> omega
      rw [this] at hh ⊢
      rw [if_neg (fun hc => by have := hh.1 hc; omega)]
      omega

/-! ## Base 128 -/

theorem readB128_hi (fuel n acc : Nat) (h : n ≤ fuel) (rest : Bytes) :
    ∃ k, readB128 (b128Hi fuel n ++ rest) acc = readB128 rest (acc * 128 ^ k + n) ∧ (n = 0 → k = 0) := by
  induction fuel generalizing n rest with
  | zero =>
    have : n = 0 := by omega
    subst this
    exact ⟨0, by simp [b128Hi], fun _ => rfl⟩
  | succ fuel ih =>
    unfold b128Hi
    split
    · subst_vars; exact ⟨0, by simp, fun _ => rfl⟩
    · rename_i hn
      obtain ⟨k, hk, _⟩ := ih (n / 128) (by omega) ([UInt8.ofNat (128 + n % 128)] ++ rest)
      refine ⟨k + 1, ?_, fun h => absurd h hn⟩
      rw [List.append_assoc, hk]
      have h1 : (UInt8.ofNat (128 + n % 128)).toNat = 128 + n % 128 := toNat_ofNat _ (by omega)
      simp only [List.singleton_append, readB128, h1]
      rw [if_neg (by omega)]
      have e : (acc * 128 ^ k + n / 128) * 128 + (128 + n % 128 - 128) = acc * 128 ^ (k + 1) + n := by
        rw [Nat.pow_succ, Nat.add_mul, Nat.mul_assoc]
        omega
      rw [e]

/-- A base-128 number reads back, leaving what follows it. -/
theorem readB128_b128 (n : Nat) (rest : Bytes) : readB128 (b128 n ++ rest) 0 = some (n, rest) := by
  obtain ⟨k, hk, _⟩ := readB128_hi n (n / 128) 0 (by omega) ([UInt8.ofNat (n % 128)] ++ rest)
  unfold b128
  rw [List.append_assoc, hk]
  have h1 : (UInt8.ofNat (n % 128)).toNat = n % 128 := toNat_ofNat _ (by omega)
  simp only [List.singleton_append, readB128, h1]
  rw [if_pos (by omega)]
  simp; omega

theorem b128Hi_head (fuel n : Nat) (h : n ≤ fuel) (hn : n ≠ 0) :
    ∃ b bs, b128Hi fuel n = b :: bs ∧ 128 < b.toNat := by
  induction fuel generalizing n with
  | zero => omega
  | succ fuel ih =>
    unfold b128Hi
    rw [if_neg hn]
    by_cases hz : n / 128 = 0
    · rw [hz]
      have : b128Hi fuel 0 = [] := by cases fuel <;> simp [b128Hi]
      refine ⟨_, [], by rw [this]; rfl, ?_⟩
      rw [toNat_ofNat _ (by omega)]
      omega
    · obtain ⟨b, bs, hb, hlt⟩ := ih (n / 128) (by omega) hz
      exact ⟨b, bs ++ [UInt8.ofNat (128 + n % 128)], by rw [hb]; rfl, hlt⟩

theorem b128_head (n : Nat) : ∃ b bs, b128 n = b :: bs ∧ b.toNat ≠ 128 := by
  unfold b128
  by_cases hz : n / 128 = 0
  · rw [hz]
    have : b128Hi n 0 = [] := by cases n <;> simp [b128Hi]
    refine ⟨_, [], by rw [this]; rfl, ?_⟩
    rw [toNat_ofNat _ (by omega)]
    omega
  · obtain ⟨b, bs, hb, hlt⟩ := b128Hi_head n (n / 128) (by omega) hz
    exact ⟨b, bs ++ _, by rw [hb]; rfl, by omega⟩

/-! ## OBJECT IDENTIFIER -/

theorem readArcs_flatMap (l : List Nat) (fuel : Nat) (h : (l.flatMap b128).length ≤ fuel) :
    readArcs fuel (l.flatMap b128) = some l := by
  induction l generalizing fuel with
  | nil => cases fuel <;> rfl
  | cons n l ih =>
    obtain ⟨b, bs, hb, hne⟩ := b128_head n
    have hr := readB128_b128 n (l.flatMap b128)
    rw [List.flatMap_cons] at h ⊢
    rw [hb] at h hr ⊢
    cases fuel with
    | zero => simp at h
    | succ fuel =>
      simp only [List.cons_append] at hr ⊢
      simp only [readArcs, if_neg hne, hr]
      rw [ih]
      · rfl
      · simp only [List.cons_append, List.length_cons, List.length_append] at h
        omega

theorem splitArcs_mergeArcs (a m : List Nat) (h : mergeArcs a = some m) : splitArcs m = some a := by
  match a, h with
  | 0 :: y :: r, h =>
    simp only [mergeArcs] at h
    split at h
    · simp at h; subst h; simp [splitArcs]; omega
    · simp at h
  | 1 :: y :: r, h =>
    simp only [mergeArcs] at h
    split at h
    · simp at h; subst h; simp only [splitArcs]; rw [if_neg (by omega), if_pos (by omega)]; simp
    · simp at h
  | 2 :: y :: r, h =>
    simp only [mergeArcs] at h
    simp at h; subst h; simp only [splitArcs]; rw [if_neg (by omega), if_neg (by omega)]; simp
  | [], h => simp [mergeArcs] at h
  | [_], h => simp [mergeArcs] at h
  | (n + 3) :: y :: r, h => simp [mergeArcs] at h

/-- OBJECT IDENTIFIER contents decode to the encoded arcs. -/
theorem decOid_encOid (a : List Nat) (b : Bytes) (h : encOid a = some b) : decOid b = some a := by
  unfold encOid at h
  cases hm : mergeArcs a with
  | none => simp [hm] at h
  | some m =>
    simp only [hm, Option.map_some, Option.some.injEq] at h
    subst h
    unfold decOid
    rw [readArcs_flatMap m _ (Nat.le_refl _)]
    exact splitArcs_mergeArcs a m hm

/-! ## BIT STRING -/

theorem bitsNat_append (a b : List Bool) (acc : Nat) : bitsNat (a ++ b) acc = bitsNat b (bitsNat a acc) := by
  induction a generalizing acc with
  | nil => rfl
  | cons x a ih => simp [bitsNat, ih]

theorem natBits_bitsNat (bs : List Bool) (acc : Nat) : natBits bs.length (bitsNat bs acc) = bs := by
  have key : ∀ (n : Nat) (bs : List Bool) (acc : Nat), bs.length = n → natBits n (bitsNat bs acc) = bs := by
    intro n
    induction n with
    | zero => intro bs acc h; simp [natBits, List.length_eq_zero_iff.1 h]
    | succ n ih =>
      intro bs acc h
      have hne : bs ≠ [] := by intro e; simp [e] at h
      obtain ⟨cs, c, rfl⟩ : ∃ cs c, bs = cs ++ [c] := ⟨bs.dropLast, bs.getLast hne, (List.dropLast_concat_getLast hne).symm⟩
      simp only [List.length_append, List.length_cons, List.length_nil] at h
      rw [bitsNat_append]
      simp only [natBits, bitsNat]
      cases c
      · have h1 : (bitsNat cs acc * 2 + if false = true then 1 else 0) / 2 = bitsNat cs acc := by simp
        rw [h1, ih cs acc (by omega)]; simp
      · have h1 : (bitsNat cs acc * 2 + if true = true then 1 else 0) / 2 = bitsNat cs acc := by simp; omega
        rw [h1, ih cs acc (by omega)]; simp
  exact key _ bs acc rfl

theorem bitsNat_lt (bs : List Bool) (acc : Nat) : bitsNat bs acc < (acc + 1) * 2 ^ bs.length := by
  induction bs generalizing acc with
  | nil => simp [bitsNat]
  | cons b bs ih =>
    simp only [bitsNat, List.length_cons]
    refine Nat.lt_of_lt_of_le (ih _) ?_
    rw [Nat.pow_succ, Nat.mul_comm (2 ^ _) 2, ← Nat.mul_assoc]
    apply Nat.mul_le_mul_right
    split <;> omega

/-- Octets of packed bits unpack to the bits followed by zero padding. -/
theorem unpack_pack (fuel : Nat) (bs : List Bool) (h : bs.length ≤ fuel) :
    unpackBits (packBits fuel bs) = bs ++ List.replicate ((8 - bs.length % 8) % 8) false ∧
    8 * (packBits fuel bs).length = bs.length + (8 - bs.length % 8) % 8 := by
  induction fuel generalizing bs with
  | zero =>
    have : bs = [] := List.length_eq_zero_iff.1 (by omega)
    subst this; simp [packBits, unpackBits]
  | succ fuel ih =>
    cases bs with
    | nil => simp [packBits, unpackBits]
    | cons b bs =>
      simp only [packBits, unpackBits]
      generalize hl : b :: bs = l at *
      have hpos : 0 < l.length := by rw [← hl]; simp
      have hg : (l.take 8 ++ List.replicate (8 - (l.take 8).length) false).length = 8 := by
        simp; omega
      have hlt := bitsNat_lt (l.take 8 ++ List.replicate (8 - (l.take 8).length) false) 0
      rw [hg] at hlt
      rw [toNat_ofNat _ (by simpa using hlt)]
      have h8 := natBits_bitsNat (l.take 8 ++ List.replicate (8 - (l.take 8).length) false) 0
      rw [hg] at h8
      rw [h8]
      obtain ⟨i1, i2⟩ := ih (l.drop 8) (by simp; omega)
      rw [i1]
      by_cases hc : 8 ≤ l.length
      · have e1 : (l.take 8).length = 8 := by simp; omega
        have e2 : (l.drop 8).length % 8 = l.length % 8 := by simp; omega
        constructor
        · rw [e1, e2]
          simp only [Nat.sub_self, List.replicate_zero, List.append_nil]
          rw [← List.append_assoc, List.take_append_drop]
        · simp only [List.length_cons, Nat.mul_add, i2, e2]
          simp; omega
      · have e1 : l.take 8 = l := List.take_of_length_le (by omega)
        have e2 : l.drop 8 = [] := List.drop_of_length_le (by omega)
        rw [e1, e2]
        have e3 : (8 - l.length % 8) % 8 = 8 - l.length := by omega
        constructor
        · rw [e3]; simp
        · have : packBits fuel [] = [] := by cases fuel <;> rfl
          rw [this, e3]; simp; omega

/-- BIT STRING contents decode to the encoded bits. -/
theorem decBits_encBits (bs : List Bool) : decBits (encBits bs) = some bs := by
  obtain ⟨h1, h2⟩ := unpack_pack bs.length bs (Nat.le_refl _)
  unfold encBits decBits
  have hp : (UInt8.ofNat ((8 - bs.length % 8) % 8)).toNat = (8 - bs.length % 8) % 8 := toNat_ofNat _ (by omega)
  simp only [hp]
  rw [if_neg (by omega), if_neg (by omega), h1, h2]
  simp

/-! ## Character strings -/

theorem char_ofNat_toNat (c : Char) : Char.ofNat c.toNat = c := by
  simp

theorem mkChar_toNat (c : Char) : mkChar c.toNat = some c := by
  unfold mkChar
  have h : c.toNat.isValidChar := c.valid
  rw [if_pos h]
  simp

theorem decAscii_encStr (s : List Char) (b : Bytes) (h : encStr .ascii s = some b) : decAscii b = some s := by
  induction s generalizing b with
  | nil => simp [encStr] at h; subst h; rfl
  | cons c s ih =>
    simp only [encStr, encChar] at h
    split at h
    · rename_i a b' h1 h2
      split at h1
      · rename_i hc
        simp at h1 h; subst h1; subst h
        have := toNat_ofNat c.toNat (by omega)
        simp only [List.singleton_append, decAscii, this, if_pos hc, ih _ h2]
        simp
      · simp at h1
    · simp at h

theorem decLatin1_encStr (s : List Char) (b : Bytes) (h : encStr .latin1 s = some b) : decLatin1 b = s := by
  induction s generalizing b with
  | nil => simp [encStr] at h; subst h; rfl
  | cons c s ih =>
    simp only [encStr, encChar] at h
    split at h
    · rename_i a b' h1 h2
      split at h1
      · rename_i hc
        simp at h1 h; subst h1; subst h
        have := toNat_ofNat c.toNat (by omega)
        simp only [List.singleton_append, decLatin1, this, ih _ h2]
        simp
      · simp at h1
    · simp at h

theorem beBytes2 (n : Nat) (h : n < 65536) : beBytes 2 n = [UInt8.ofNat (n / 256), UInt8.ofNat (n % 256)] := by
  simp [beBytes]
  congr 1; omega

theorem char_lt (c : Char) : c.toNat < 1114112 ∧ ¬ (55296 ≤ c.toNat ∧ c.toNat < 57344) := by
  have := c.valid
  simp only [UInt32.isValidChar, Nat.isValidChar] at this
  have e : c.val.toNat = c.toNat := rfl
  rw [e] at this
  omega

theorem utf16Head_char (c : Char) (rest : Bytes) :
    ∀ a, encChar .utf16be c = some a → utf16Head (a ++ rest) = some (c, rest) ∧ a ≠ [] := by
  intro a h
  have hc := char_lt c
  have h : (if c.toNat < 65536 then some (beBytes 2 c.toNat)
    else some (beBytes 2 (55296 + (c.toNat - 65536) / 1024) ++ beBytes 2 (56320 + (c.toNat - 65536) % 1024))) = some a := h
  split at h
  · rename_i hn
    simp only [Option.some.injEq] at h; subst h
    rw [beBytes2 _ hn]
    have h1 := toNat_ofNat (c.toNat / 256) (by omega)
    have h2 := toNat_ofNat (c.toNat % 256) (by omega)
    have e : c.toNat / 256 * 256 + c.toNat % 256 = c.toNat := by omega
    refine ⟨?_, by simp⟩
    rw [List.cons_append, List.cons_append, List.nil_append]
    unfold utf16Head
    simp only [h1, h2, e]
    rw [if_neg (by omega), mkChar_toNat]; rfl
  · rename_i hn
    simp only [Option.some.injEq] at h; subst h
    rw [beBytes2 _ (by omega), beBytes2 _ (by omega)]
    generalize hx : (55296 + (c.toNat - 65536) / 1024) = x
    generalize hy : (56320 + (c.toNat - 65536) % 1024) = y
    have h1 := toNat_ofNat (x / 256) (by omega)
    have h2 := toNat_ofNat (x % 256) (by omega)
    have h3 := toNat_ofNat (y / 256) (by omega)
    have h4 := toNat_ofNat (y % 256) (by omega)
    have e1 : x / 256 * 256 + x % 256 = x := Nat.div_add_mod' x 256
    have e2 : y / 256 * 256 + y % 256 = y := Nat.div_add_mod' y 256
    have e3 : 65536 + (x - 55296) * 1024 + (y - 56320) = c.toNat := by omega
    refine ⟨?_, by simp⟩
    simp only [List.cons_append, List.nil_append]
    unfold utf16Head
    simp only [h1, h2, h3, h4, e1, e2]
    rw [if_pos (by omega), if_pos (by omega), e3, mkChar_toNat]; rfl

theorem utf32Head_char (c : Char) (rest : Bytes) :
    ∀ a, encChar .utf32be c = some a → utf32Head (a ++ rest) = some (c, rest) ∧ a ≠ [] := by
  intro a h
  have hc := char_lt c
  unfold encChar at h
  simp only [Option.some.injEq] at h
  have hb := beNat_beBytes 4 c.toNat 0
  have hl := beBytes_length 4 c.toNat
  rw [h] at hb hl
  match a, hl with
  | [a0, a1, a2, a3], _ =>
    refine ⟨?_, by simp⟩
    simp only [List.cons_append, List.nil_append]
    unfold utf32Head
    simp only []
    rw [hb, Nat.zero_mul, Nat.zero_add, Nat.mod_eq_of_lt (by omega), mkChar_toNat]; rfl

theorem cont_ofNat (n : Nat) (h : n < 64) : cont (UInt8.ofNat (n + 128)) = some n := by
  unfold cont
  rw [toNat_ofNat _ (by omega), if_pos (by omega)]
  simp

theorem utf8Head_char (c : Char) (rest : Bytes) :
    utf8Head (String.utf8EncodeChar c ++ rest) = some (c, rest) ∧ String.utf8EncodeChar c ≠ [] := by
  have hc := char_lt c
  have e : c.val.toNat = c.toNat := rfl
  unfold String.utf8EncodeChar
  rw [e]
  simp only []
  split
  · rename_i h
    have h1 := toNat_ofNat c.toNat (by omega)
    refine ⟨?_, by simp⟩
    simp only [List.cons_append, List.nil_append]
    unfold utf8Head
    have h1' : c.toNat.toUInt8.toNat = c.toNat := h1
    simp only [h1']
    rw [if_pos (by omega)]; simp
  · split
    · rename_i h0 h
      have h1 : (c.toNat / 64 % 32 + 192).toUInt8.toNat = _ := toNat_ofNat (c.toNat / 64 % 32 + 192) (by omega)
      have h2 : cont (c.toNat % 64 + 128).toUInt8 = _ := cont_ofNat (c.toNat % 64) (by omega)
      refine ⟨?_, by simp⟩
      simp only [List.cons_append, List.nil_append]
      unfold utf8Head
      simp only [h1, h2]
      rw [if_neg (by omega), if_neg (by omega), if_pos (by omega), if_neg (by omega)]
      have : (c.toNat / 64 % 32 + 192 - 192) * 64 + c.toNat % 64 = c.toNat := by omega
      rw [this, mkChar_toNat]; rfl
    · split
      · rename_i h0 h3 h
        have h1 : (c.toNat / 4096 % 16 + 224).toUInt8.toNat = _ := toNat_ofNat (c.toNat / 4096 % 16 + 224) (by omega)
        have h2 : cont (c.toNat / 64 % 64 + 128).toUInt8 = _ := cont_ofNat (c.toNat / 64 % 64) (by omega)
        have h4 : cont (c.toNat % 64 + 128).toUInt8 = _ := cont_ofNat (c.toNat % 64) (by omega)
        refine ⟨?_, by simp⟩
        simp only [List.cons_append, List.nil_append]
        unfold utf8Head
        simp only [h1, h2, h4]
        rw [if_neg (by omega), if_neg (by omega), if_neg (by omega), if_pos (by omega), if_neg (by omega)]
        have : (c.toNat / 4096 % 16 + 224 - 224) * 4096 + c.toNat / 64 % 64 * 64 + c.toNat % 64 = c.toNat := by omega
        rw [this, mkChar_toNat]; rfl
      · rename_i h0 h3 h5
        have h1 : (c.toNat / 262144 % 8 + 240).toUInt8.toNat = _ := toNat_ofNat (c.toNat / 262144 % 8 + 240) (by omega)
        have h2 : cont (c.toNat / 4096 % 64 + 128).toUInt8 = _ := cont_ofNat (c.toNat / 4096 % 64) (by omega)
        have h4 : cont (c.toNat / 64 % 64 + 128).toUInt8 = _ := cont_ofNat (c.toNat / 64 % 64) (by omega)
        have h6 : cont (c.toNat % 64 + 128).toUInt8 = _ := cont_ofNat (c.toNat % 64) (by omega)
        refine ⟨?_, by simp⟩
        simp only [List.cons_append, List.nil_append]
        unfold utf8Head
        simp only [h1, h2, h4, h6]
        rw [if_neg (by omega), if_neg (by omega), if_neg (by omega), if_neg (by omega), if_neg (by omega)]
        have : (c.toNat / 262144 % 8 + 240 - 240) * 262144 + c.toNat / 4096 % 64 * 4096 + c.toNat / 64 % 64 * 64 + c.toNat % 64 = c.toNat := by omega
        rw [this, mkChar_toNat]; rfl

/-- A decoder that reads back single characters reads back strings. -/
theorem decChars_encStr (k : CharKind) (head : Bytes → Option (Char × Bytes))
    (hh : ∀ c rest a, encChar k c = some a → head (a ++ rest) = some (c, rest) ∧ a ≠ [])
    (s : List Char) (b : Bytes) (fuel : Nat) (hf : b.length ≤ fuel) (h : encStr k s = some b) :
    decChars head fuel b = some s := by
  induction s generalizing b fuel with
  | nil => simp [encStr] at h; subst h; cases fuel <;> rfl
  | cons c s ih =>
    simp only [encStr] at h
    split at h
    · rename_i a b' h1 h2
      simp only [Option.some.injEq] at h; subst h
      obtain ⟨e1, e2⟩ := hh c b' a h1
      cases a with
      | nil => exact absurd rfl e2
      | cons x a =>
        cases fuel with
        | zero => simp at hf
        | succ fuel =>
          simp only [List.cons_append] at e1 ⊢
          simp only [decChars, e1]
          rw [ih b' fuel (by simp at hf; omega) h2]; rfl
    · simp at h

/-- Character strings decode to the encoded text, in every encoding. -/
theorem decStr_encStr (k : CharKind) (s : List Char) (b : Bytes) (h : encStr k s = some b) :
    decStr k b = some s := by
  cases k with
  | ascii => exact decAscii_encStr s b h
  | latin1 => simp [decStr, decLatin1_encStr s b h]
  | utf8 =>
    refine decChars_encStr .utf8 utf8Head (fun c rest a h => ?_) s b _ (Nat.le_refl _) h
    simp only [encChar, Option.some.injEq] at h
    subst h
    exact utf8Head_char c rest
  | utf16be => exact decChars_encStr .utf16be utf16Head utf16Head_char s b _ (Nat.le_refl _) h
  | utf32be => exact decChars_encStr .utf32be utf32Head utf32Head_char s b _ (Nat.le_refl _) h

/-! ## Times -/

theorem takeWhile_all {α : Type} {p : α → Bool} : ∀ (l : List α), (∀ x ∈ l, p x = true) → l.takeWhile p = l
  | [], _ => rfl
  | x :: l, h => by rw [List.takeWhile_cons, h x (by simp)]; simp [takeWhile_all l (fun y hy => h y (by simp [hy]))]

theorem dropWhile_all {α : Type} {p : α → Bool} : ∀ (l : List α), (∀ x ∈ l, p x = true) → l.dropWhile p = []
  | [], _ => rfl
  | x :: l, h => by rw [List.dropWhile_cons, h x (by simp)]; simp [dropWhile_all l (fun y hy => h y (by simp [hy]))]

/-- A time with one `.`. -/
theorem trimTime_dot (pre f : List Char) (hp : ∀ c ∈ pre, c ≠ '.') (hf : ∀ c ∈ f, c ≠ '.') :
    trimTime (pre ++ '.' :: f) = if ((f.take 4).filter (· != '0') ++ f.drop 4).head? = some 'Z'
      then pre ++ ((f.take 4).filter (· != '0') ++ f.drop 4) else pre ++ '.' :: ((f.take 4).filter (· != '0') ++ f.drop 4) := by
  have h1 : (pre ++ '.' :: f).dropWhile (· != '.') = '.' :: f := by
    rw [List.dropWhile_append_of_pos (by simpa using hp)]; simp
  have h2 : (pre ++ '.' :: f).takeWhile (· != '.') = pre := by
    rw [List.takeWhile_append_of_pos (by simpa using hp)]; simp
  have h3 : ∀ c ∈ (f.take 4).reverse, (c != '.') = true := by
    intro c hc
    simpa using hf c (List.mem_of_mem_take (List.mem_reverse.1 hc))
  simp only [trimTime, h1, h2, dropWhile_all _ h3, takeWhile_all _ h3, List.reverse_reverse, List.reverse_nil]
  split <;> simp

theorem trimTime_none (s : List Char) (h : ∀ c ∈ s, c ≠ '.') : trimTime s = s := by
  have : s.dropWhile (· != '.') = [] := dropWhile_all s (by simpa using h)
  simp only [trimTime, this]

/-- A text is without `.`, or has a first one. -/
theorem dot_cases (s : List Char) : (∀ c ∈ s, c ≠ '.') ∧ s.dropWhile (· != '.') = [] ∨
    ∃ pre f, s = pre ++ '.' :: f ∧ (∀ c ∈ pre, c ≠ '.') ∧ s.dropWhile (· != '.') = '.' :: f := by
  induction s with
  | nil => exact .inl ⟨by simp, rfl⟩
  | cons x s ih =>
    by_cases hx : x = '.'
    · subst hx
      exact .inr ⟨[], s, rfl, by simp, by simp⟩
    · have hd : (x :: s).dropWhile (· != '.') = s.dropWhile (· != '.') := by simp [hx]
      rcases ih with ⟨h1, h2⟩ | ⟨pre, f, rfl, h1, h2⟩
      · exact .inl ⟨by simpa [hx] using h1, by rw [hd, h2]⟩
      · exact .inr ⟨x :: pre, f, rfl, by simpa [hx] using h1, by rw [hd, h2]⟩

theorem trimTime_plain (s : List Char) (h : plainFraction s = true) : trimTime s = s := by
  rcases dot_cases s with ⟨h1, -⟩ | ⟨pre, f, rfl, h1, h2⟩
  · exact trimTime_none s h1
  · simp only [plainFraction, h2, Bool.and_eq_true, Bool.not_eq_true', bne_iff_ne, List.contains_eq_mem, decide_eq_false_iff_not] at h
    obtain ⟨⟨h3, h4⟩, h5⟩ := h
    have hz : (f.take 4).filter (· != '0') = f.take 4 := List.filter_eq_self.2 (fun c hc => by
      rw [bne_iff_ne]; rintro rfl; exact h4 hc)
    rw [trimTime_dot pre f h1 (fun c hc => by rintro rfl; exact h3 hc), hz, List.take_append_drop, if_neg h5]

theorem trimTime_legal {lo hi : Nat} {s : List Char} (h : legalTime lo hi s = true) : trimTime s = s := by
  simp only [legalTime, Bool.and_eq_true] at h
  exact trimTime_plain s h.2

/-- Every legal primitive value reads back from its contents octets. -/
theorem decPrim_encPrim (k : Prim) (v : Val) (b : Bytes) (h : encPrim k v = some b)
    (hl : primLegal k v = true) : decPrim k b = some v := by
  cases k <;> cases v <;> simp only [encPrim] at h <;> try contradiction
  all_goals try simp only [Option.some.injEq] at h
  case boolean.int i =>
    simp only [primLegal, Bool.or_eq_true, beq_iff_eq] at hl
    rcases hl with hb | hb <;> · subst hb; simp at h; subst h; rfl
  case integer.int i => subst h; simp [decPrim, decInt_encInt]
  case enumerated.int i => subst h; simp [decPrim, decInt_encInt]
  case bitString.bits bs => subst h; simp [decPrim, decBits_encBits]
  case octetString.octets => subst h; rfl
  case null.null => subst h; rfl
  case oid.oid a => simp [decPrim, decOid_encOid a b h]
  case any.octets => subst h; rfl
  case str.str k s => simp [decPrim, decStr_encStr k s b h]
  case utcTime.str s =>
    rw [trimTime_legal hl] at h
    split at h
    · simp [decPrim, decAscii_encStr s b h]
    · simp at h
  case generalizedTime.str s =>
    rw [trimTime_legal hl] at h
    split at h
    · simp [decPrim, decAscii_encStr s b h]
    · simp at h

end Asn1
end Verif
