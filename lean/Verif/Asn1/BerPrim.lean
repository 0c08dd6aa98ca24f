import Verif.Spec.Ber
import Verif.Asn1.DerPrim
import Verif.Asn1.Compat

/-! # What the primitive readers accept is what `Verif/Spec/Ber.lean` says -/

namespace Verif
namespace Asn1

open Der

/-! ## Identifier and length octets -/

theorem number_from (m : Nat) (b : Octets) : ∀ acc, b.foldl (fun n x => n * m + x.toNat % m) acc = acc * m ^ b.length + number m b := by
  unfold number
  induction b with
  | nil => intro acc; simp
  | cons x b ih =>
    intro acc
    simp only [List.foldl_cons, List.length_cons]
    rw [ih, ih (0 * m + x.toNat % m)]
    rw [Nat.pow_succ, Nat.add_mul, Nat.add_mul, Nat.mul_assoc, Nat.mul_comm m]
    simp only [Nat.zero_mul, Nat.zero_add]
    omega

theorem readB128_groups : ∀ (b : Bytes) (acc n : Nat) (r : Bytes), readB128 b acc = some (n, r) →
    ∃ hi lo, b = hi ++ lo :: r ∧ (∀ x ∈ hi, 128 ≤ x.toNat) ∧ lo.toNat < 128 ∧
      n = (hi ++ [lo]).foldl (fun n x => n * 128 + x.toNat % 128) acc
  | [], acc, n, r, h => by simp [readB128] at h
  | x :: b, acc, n, r, h => by
    simp only [readB128] at h
    split at h
    · rename_i hx
      simp only [Option.some.injEq, Prod.mk.injEq] at h
      obtain ⟨h1, h2⟩ := h
      subst h2
      refine ⟨[], x, rfl, by simp, hx, ?_⟩
      simp only [List.nil_append, List.foldl_cons, List.foldl_nil]
      rw [Nat.mod_eq_of_lt hx]; exact h1.symm
    · rename_i hx
      obtain ⟨hi, lo, h1, h2, h3, h4⟩ := readB128_groups b _ n r h
      refine ⟨x :: hi, lo, by rw [h1]; rfl, ?_, h3, ?_⟩
      · intro y hy
        rcases List.mem_cons.1 hy with rfl | hy
        · omega
        · exact h2 y hy
      · rw [h4]
        simp only [List.cons_append, List.foldl_cons]
        have : x.toNat % 128 = x.toNat - 128 := by
          have := x.toNat_lt
          omega
        rw [this]

theorem lead_eq (x : UInt8) (m : Nat) (hm : x.toNat % 32 = m) :
    x = UInt8.ofNat (classBits (Cls.ofBits (x.toNat / 64)) + (if (x.toNat / 32 % 2 == 1) = true then 32 else 0) + m) := by
  apply uint8_ext
  have hx := x.toNat_lt
  have h4 : x.toNat / 64 = 0 ∨ x.toNat / 64 = 1 ∨ x.toNat / 64 = 2 ∨ x.toNat / 64 = 3 := by omega
  have h2 : x.toNat / 32 % 2 = 0 ∨ x.toNat / 32 % 2 = 1 := by omega
  rcases h4 with h | h | h | h <;> rcases h2 with h' | h' <;> rw [h, h'] <;> simp [Cls.ofBits, classBits] <;> omega

theorem readTag_ber (b : Bytes) (c : Cls) (k : Bool) (n : Nat) (r : Bytes) (h : readTag b = some (c, k, n, r)) :
    ∃ i, Ber.Identifier c k n i ∧ b = i ++ r := by
  cases b with
  | nil => simp [readTag] at h
  | cons x b =>
    simp only [readTag] at h
    split at h
    · rename_i hx
      simp only [Option.some.injEq, Prod.mk.injEq] at h
      obtain ⟨rfl, rfl, rfl, rfl⟩ := h
      refine ⟨[x], ?_, rfl⟩
      have := Ber.Identifier.low (c := Cls.ofBits (x.toNat / 64)) (constructed := x.toNat / 32 % 2 == 1) (n := x.toNat % 32) (by omega)
      rw [← lead_eq x _ rfl] at this
      exact this
    · rename_i hx
      split at h
      · rename_i m r' hm
        simp only [Option.some.injEq, Prod.mk.injEq] at h
        obtain ⟨rfl, rfl, rfl, rfl⟩ := h
        obtain ⟨hi, lo, h1, h2, h3, h4⟩ := readB128_groups _ _ _ _ hm
        refine ⟨x :: (hi ++ [lo]), ?_, by rw [h1]; simp⟩
        have := Ber.Identifier.high (c := Cls.ofBits (x.toNat / 64)) (constructed := x.toNat / 32 % 2 == 1) (n := m)
          (hi ++ [lo]) ⟨hi, lo, rfl, h2, h3, h4.symm⟩
        rw [← lead_eq x 31 (by omega)] at this
        exact this
      · simp at h

theorem readLen_ber (b : Bytes) (n : Nat) (r : Bytes) (h : readLen b = some (n, r)) : ∃ l, Ber.Length n l ∧ b = l ++ r := by
  cases b with
  | nil => simp [readLen] at h
  | cons x b =>
    simp only [readLen] at h
    split at h
    · rename_i hx
      simp only [Option.some.injEq, Prod.mk.injEq] at h
      obtain ⟨h1, rfl⟩ := h
      refine ⟨[x], ?_, rfl⟩
      have := Ber.Length.short (n := n) (by omega)
      rw [← h1, ← uint8_ext x _ rfl] at this
      rwa [← h1]
    · rename_i hx
      split at h
      · simp at h
      · rename_i hx'
        split at h
        · simp at h
        · rename_i hl
          simp only [Option.some.injEq, Prod.mk.injEq] at h
          obtain ⟨h1, rfl⟩ := h
          have hlt := x.toNat_lt
          have hlen : (b.take (x.toNat - 128)).length = x.toNat - 128 := by
            rw [List.length_take]; omega
          refine ⟨x :: b.take (x.toNat - 128), ?_, by simp⟩
          have := Ber.Length.long (n := n) (b.take (x.toNat - 128)) (by intro h0; rw [h0] at hlen; simp at hlen; omega) (by omega)
            (by rw [number_beNat]; exact h1)
          rw [hlen] at this
          rw [← uint8_ext x (128 + (x.toNat - 128)) (by omega)] at this
          exact this

theorem whole_ber (x : TLV) (h : x.whole) : Ber.Element x.cls x.num x.constructed x.content x.raw := by
  unfold TLV.whole readTLV at h
  split at h
  · simp at h
  · rename_i c k n r ht
    split at h
    · simp at h
    · rename_i len r' hl
      split at h
      · simp at h
      · rename_i hlen
        obtain ⟨i, hi, h1⟩ := readTag_ber _ _ _ _ _ ht
        obtain ⟨l, hl, h2⟩ := readLen_ber _ _ _ hl
        simp only [Option.some.injEq, Prod.mk.injEq] at h
        obtain ⟨hx, hr⟩ := h
        have hlen' : r'.length = len := by
          have := congrArg List.length hr
          simp at this
          omega
        have e1 : x.cls = c := by rw [← hx]
        have e2 : x.constructed = k := by rw [← hx]
        have e3 : x.num = n := by rw [← hx]
        have e4 : x.content = r' := by rw [← hx]; simp [← hlen']
        rw [e1, e2, e3, e4]
        refine ⟨i, l, hi, by rw [hlen']; exact hl, ?_⟩
        rw [h1, h2]; simp

theorem items_ber : ∀ (n : Nat) (b : Bytes) (xs : List TLV), parseTLVs n b = some xs → b = (xs.map TLV.raw).flatten
  | n, [], xs, h => by
    cases n <;> simp_all [parseTLVs]
  | 0, _ :: _, xs, h => by simp [parseTLVs] at h
  | n + 1, c :: b, xs, h => by
    simp only [parseTLVs] at h
    split at h
    · simp at h
    · rename_i y r hy
      split at h
      · simp at h
      · rename_i ys hys
        simp only [Option.some.injEq] at h
        subst h
        rw [(readTLV_suffix _ _ _ hy).1, items_ber n r ys hys]
        simp

theorem around_snoc (t : Tag) (e' b : Octets) : ∀ (ts : TagSet) (e : Octets), Ber.Around ts e e' → t.cls ≠ .universal →
    (∃ junk, Ber.Element t.cls t.num true (e' ++ junk) b) → Ber.Around (ts ++ [t]) e b
  | [], e, h, ht, ⟨junk, hb⟩ => by
    simp only [Ber.Around] at h
    subst h
    exact ⟨ht, junk, b, hb, rfl⟩
  | u :: ts, e, ⟨hu, j, e1, h1, h2⟩, ht, hb => ⟨hu, j, e1, h1, around_snoc t e' b ts e1 h2 ht hb⟩

theorem unwrap_ber : ∀ (us : List Tag) (x y : TLV), x.whole → unwrap us x = some y →
    ∃ t ts, us.reverse = t :: ts ∧ y.cls = t.cls ∧ y.num = t.num ∧ y.whole ∧ Ber.Around ts y.raw x.raw
  | [], _, _, _, h => by simp [unwrap] at h
  | [t], x, y, hx, h => by
    simp only [unwrap] at h
    split at h
    · rename_i hh
      simp only [Option.some.injEq] at h
      subst h
      simp only [TLV.has, Bool.and_eq_true, beq_iff_eq] at hh
      exact ⟨t, [], rfl, hh.1, hh.2, hx, rfl⟩
    · simp at h
  | u :: u' :: us, x, y, hx, h => by
    simp only [unwrap] at h
    split at h
    · rename_i hh
      split at h
      · rename_i z r hz
        obtain ⟨t, ts, h1, h2, h3, h4, h5⟩ := unwrap_ber (u' :: us) z y (readTLV_raw _ _ _ hz) h
        simp only [TLV.has, Bool.and_eq_true, beq_iff_eq, bne_iff_ne] at hh
        obtain ⟨⟨⟨hc, hn⟩, hk⟩, hu⟩ := hh
        refine ⟨t, ts ++ [u], by rw [List.reverse_cons, h1]; rfl, h2, h3, h4, ?_⟩
        refine around_snoc u z.raw x.raw ts y.raw h5 (hc ▸ hu) ⟨r, ?_⟩
        have := whole_ber x hx
        rw [hc, hn, hk, (readTLV_suffix _ _ _ hz).1] at this
        exact this
      · simp at h
    · simp at h

theorem unwrap_tagged (a : Attrs) (x y : TLV) (hx : x.whole) (h : unwrap a.tags.reverse x = some y) :
    Ber.Tagged y.constructed a.tags y.content x.raw ∧ y.whole := by
  obtain ⟨t, ts, h1, h2, h3, h4, h5⟩ := unwrap_ber _ _ _ hx h
  rw [List.reverse_reverse] at h1
  rw [h1]
  refine ⟨⟨y.raw, ?_, h5⟩, h4⟩
  have := whole_ber y h4
  rwa [h2, h3] at this

/-! ## Contents -/

theorem mkChar_some (n : Nat) (c : Char) (h : mkChar n = some c) : c.toNat = n := by
  unfold mkChar at h
  split at h
  · rename_i hv
    simp only [Option.some.injEq] at h
    rw [← h]
    simp only [Char.ofNat, hv, dif_pos]
    rfl
  · simp at h

theorem ofNat_byte (x : UInt8) : (Char.ofNat x.toNat).toNat = x.toNat := by
  have hx := x.toNat_lt
  have hv : x.toNat.isValidChar := Or.inl (by omega)
  simp only [Char.ofNat, hv, dif_pos]
  rfl

theorem decAscii_ber : ∀ (b : Bytes) (s : List Char), decAscii b = some s →
    ∃ bs, each2 (Ber.Character .ascii) s bs ∧ b = bs.flatten
  | [], s, h => by
    simp only [decAscii, Option.some.injEq] at h
    subst h
    exact ⟨[], trivial, rfl⟩
  | x :: b, s, h => by
    simp only [decAscii] at h
    split at h
    · rename_i hx
      simp only [Option.map_eq_some_iff] at h
      obtain ⟨s', h1, rfl⟩ := h
      obtain ⟨bs, h2, h3⟩ := decAscii_ber b s' h1
      exact ⟨[x] :: bs, ⟨⟨x, rfl, (ofNat_byte x).symm, by rw [ofNat_byte]; exact hx⟩, h2⟩, by rw [h3]; rfl⟩
    · simp at h

theorem decLatin1_ber : ∀ (b : Bytes), ∃ bs, each2 (Ber.Character .latin1) (decLatin1 b) bs ∧ b = bs.flatten
  | [] => ⟨[], trivial, rfl⟩
  | x :: b => by
    obtain ⟨bs, h2, h3⟩ := decLatin1_ber b
    exact ⟨[x] :: bs, ⟨⟨x, rfl, (ofNat_byte x).symm⟩, h2⟩, by simp only [List.flatten_cons]; rw [← h3]; rfl⟩

theorem decChars_ber (k : CharKind) (head : Bytes → Option (Char × Bytes))
    (hh : ∀ b c r, head b = some (c, r) → ∃ p, Ber.Character k c p ∧ b = p ++ r) :
    ∀ (n : Nat) (b : Bytes) (s : List Char), decChars head n b = some s → ∃ bs, each2 (Ber.Character k) s bs ∧ b = bs.flatten
  | n, [], s, h => by
    have : s = [] := by cases n <;> simp_all [decChars]
    subst this
    exact ⟨[], trivial, rfl⟩
  | 0, _ :: _, s, h => by simp [decChars] at h
  | n + 1, x :: b, s, h => by
    simp only [decChars] at h
    split at h
    · simp at h
    · rename_i c r hc
      simp only [Option.map_eq_some_iff] at h
      obtain ⟨s', h1, rfl⟩ := h
      obtain ⟨p, hp, hb⟩ := hh _ _ _ hc
      obtain ⟨bs, h2, h3⟩ := decChars_ber k head hh n r s' h1
      exact ⟨p :: bs, ⟨hp, h2⟩, by rw [hb, h3]; rfl⟩

theorem utf32_ber (b : Bytes) (c : Char) (r : Bytes) (h : utf32Head b = some (c, r)) :
    ∃ p, Ber.Character .utf32be c p ∧ b = p ++ r := by
  unfold utf32Head at h
  split at h
  · rename_i x y z w bs
    simp only [Option.map_eq_some_iff, Prod.mk.injEq] at h
    obtain ⟨c', h1, rfl, rfl⟩ := h
    refine ⟨[x, y, z, w], ⟨x, y, z, w, rfl, ?_⟩, rfl⟩
    rw [mkChar_some _ _ h1]
    simp [beNat]
  · simp at h

theorem utf16_ber (b : Bytes) (c : Char) (r : Bytes) (h : utf16Head b = some (c, r)) :
    ∃ p, Ber.Character .utf16be c p ∧ b = p ++ r := by
  unfold utf16Head at h
  split at h
  · rename_i x y bs
    simp only at h
    split at h
    · rename_i hhi
      split at h
      · rename_i z w bs'
        split at h
        · rename_i hlo
          simp only [Option.map_eq_some_iff, Prod.mk.injEq] at h
          obtain ⟨c', h1, rfl, rfl⟩ := h
          exact ⟨[x, y, z, w], Or.inr ⟨x, y, z, w, rfl, hhi.1, hhi.2, hlo.1, hlo.2, mkChar_some _ _ h1⟩, rfl⟩
        · simp at h
      · simp at h
    · simp only [Option.map_eq_some_iff, Prod.mk.injEq] at h
      obtain ⟨c', h1, rfl, rfl⟩ := h
      exact ⟨[x, y], Or.inl ⟨x, y, rfl, (mkChar_some _ _ h1).symm⟩, rfl⟩
  · simp at h

theorem byte_eq (x : UInt8) (n : Nat) (h : x.toNat = n) : x = UInt8.ofNat n := uint8_ext x n h

theorem cont_some (x : UInt8) (n : Nat) (h : cont x = some n) : x.toNat = n + 128 ∧ n < 64 := by
  unfold cont at h
  split at h
  · simp only [Option.some.injEq] at h
    omega
  · simp at h

theorem utf8_ber (b : Bytes) (c : Char) (r : Bytes) (h : utf8Head b = some (c, r)) :
    ∃ p, Ber.Character .utf8 c p ∧ b = p ++ r := by
  refine ⟨String.utf8EncodeChar c, rfl, ?_⟩
  have hc := char_lt c
  have e : c.val.toNat = c.toNat := rfl
  unfold String.utf8EncodeChar
  rw [e]
  simp only []
  unfold utf8Head at h
  split at h
  · rename_i b0 bs
    have hb0 := b0.toNat_lt
    split at h
    · rename_i h0
      simp only [Option.some.injEq, Prod.mk.injEq] at h
      obtain ⟨rfl, rfl⟩ := h
      rw [ofNat_byte, if_pos (by omega)]
      rw [← byte_eq b0 _ rfl]; rfl
    · split at h
      · simp at h
      · split at h
        · split at h
          · rename_i b1 bs
            split at h
            · rename_i x hx
              obtain ⟨h1, h1'⟩ := cont_some _ _ hx
              simp only at h
              split at h
              · simp at h
              · rename_i hn
                simp only [Option.map_eq_some_iff, Prod.mk.injEq] at h
                obtain ⟨c', hm, rfl, rfl⟩ := h
                have hm := mkChar_some _ _ hm
                rw [if_neg (by omega), if_pos (by omega)]
                rw [← byte_eq b0 (c'.toNat / 64 % 32 + 192) (by omega), ← byte_eq b1 (c'.toNat % 64 + 128) (by omega)]
                rfl
            · simp at h
          · simp at h
        · split at h
          · split at h
            · rename_i b1 b2 bs
              split at h
              · rename_i x y hx hy
                obtain ⟨h1, h1'⟩ := cont_some _ _ hx
                obtain ⟨h2, h2'⟩ := cont_some _ _ hy
                simp only at h
                split at h
                · simp at h
                · rename_i hn
                  simp only [Option.map_eq_some_iff, Prod.mk.injEq] at h
                  obtain ⟨c', hm, rfl, rfl⟩ := h
                  have hm := mkChar_some _ _ hm
                  rw [if_neg (by omega), if_neg (by omega), if_pos (by omega)]
                  rw [← byte_eq b0 (c'.toNat / 4096 % 16 + 224) (by omega), ← byte_eq b1 (c'.toNat / 64 % 64 + 128) (by omega),
                    ← byte_eq b2 (c'.toNat % 64 + 128) (by omega)]
                  rfl
              · simp at h
            · simp at h
          · split at h
            · rename_i b1 b2 b3 bs
              split at h
              · rename_i x y z hx hy hz
                obtain ⟨h1, h1'⟩ := cont_some _ _ hx
                obtain ⟨h2, h2'⟩ := cont_some _ _ hy
                obtain ⟨h3, h3'⟩ := cont_some _ _ hz
                simp only at h
                split at h
                · simp at h
                · rename_i hn
                  simp only [Option.map_eq_some_iff, Prod.mk.injEq] at h
                  obtain ⟨c', hm, rfl, rfl⟩ := h
                  have hm := mkChar_some _ _ hm
                  rw [if_neg (by omega), if_neg (by omega), if_neg (by omega)]
                  rw [← byte_eq b0 (c'.toNat / 262144 % 8 + 240) (by omega), ← byte_eq b1 (c'.toNat / 4096 % 64 + 128) (by omega),
                    ← byte_eq b2 (c'.toNat / 64 % 64 + 128) (by omega), ← byte_eq b3 (c'.toNat % 64 + 128) (by omega)]
                  rfl
              · simp at h
            · simp at h
  · simp at h

theorem decStr_ber (k : CharKind) (b : Bytes) (s : List Char) (h : decStr k b = some s) :
    ∃ bs, each2 (Ber.Character k) s bs ∧ b = bs.flatten := by
  cases k with
  | ascii => exact decAscii_ber b s h
  | latin1 =>
    simp only [decStr, Option.some.injEq] at h
    subst h
    exact decLatin1_ber b
  | utf8 => exact decChars_ber .utf8 _ utf8_ber _ _ _ h
  | utf16be => exact decChars_ber .utf16be _ utf16_ber _ _ _ h
  | utf32be => exact decChars_ber .utf32be _ utf32_ber _ _ _ h

theorem readArcs_ber : ∀ (n : Nat) (b : Bytes) (l : List Nat), readArcs n b = some l → ∃ gs, each2 Der.Groups l gs ∧ b = gs.flatten
  | n, [], l, h => by
    have : l = [] := by cases n <;> simp_all [readArcs]
    subst this
    exact ⟨[], trivial, rfl⟩
  | 0, _ :: _, l, h => by simp [readArcs] at h
  | n + 1, x :: b, l, h => by
    simp only [readArcs] at h
    split at h
    · simp at h
    · rename_i hx
      split at h
      · simp at h
      · rename_i m r hm
        simp only [Option.map_eq_some_iff] at h
        obtain ⟨l', h1, rfl⟩ := h
        obtain ⟨hi, lo, h2, h3, h4, h5⟩ := readB128_groups _ _ _ _ hm
        obtain ⟨gs, h6, h7⟩ := readArcs_ber n r l' h1
        refine ⟨(hi ++ [lo]) :: gs, ⟨⟨hi, lo, rfl, h3, h4, ?_, h5.symm⟩, h6⟩, by rw [h2, h7]; simp⟩
        intro h0
        cases hi with
        | nil => simp at h0
        | cons y hi =>
          simp only [List.head?_cons, Option.some.injEq] at h0
          simp only [List.cons_append, List.cons.injEq] at h2
          rw [h2.1, h0] at hx
          exact hx rfl

theorem decPrim_ber (k : Prim) (v : Val) (b : Bytes) (hk : k ≠ .any) (h : decPrim k b = some v) : Ber.Contents k v b := by
  cases k with
  | boolean =>
    simp only [decPrim] at h
    split at h
    · simp only [Option.some.injEq] at h
      subst h
      exact Or.inl ⟨rfl, by assumption⟩
    · split at h
      · simp only [Option.some.injEq] at h
        subst h
        exact Or.inr ⟨rfl, by assumption⟩
      · simp at h
  | integer =>
    simp only [decPrim, Option.some.injEq] at h
    subst h
    exact twos_decInt b
  | enumerated =>
    simp only [decPrim, Option.some.injEq] at h
    subst h
    exact twos_decInt b
  | bitString =>
    simp only [decPrim, Option.map_eq_some_iff] at h
    obtain ⟨bs, h, rfl⟩ := h
    cases b with
    | nil => simp [decBits] at h
    | cons p b =>
      simp only [decBits] at h
      split at h
      · simp at h
      · split at h
        · simp at h
        · simp only [Option.some.injEq] at h
          refine ⟨p, b, (unpackBits b).drop (8 * b.length - p.toNat), rfl, by omega, ?_, ?_⟩
          · rw [List.length_drop, ← flatMap_bitsOf, flatMap_bitsOf_length]; omega
          · rw [← h, List.take_append_drop, flatMap_bitsOf]
  | octetString =>
    simp only [decPrim, Option.some.injEq] at h
    subst h
    rfl
  | null =>
    simp only [decPrim] at h
    split at h
    · rename_i hb
      simp only [Option.some.injEq] at h
      subst h
      exact List.isEmpty_iff.1 hb
    · simp at h
  | oid =>
    simp only [decPrim, Option.map_eq_some_iff] at h
    obtain ⟨l, h, rfl⟩ := h
    simp only [decOid] at h
    split at h
    · rename_i m hm
      obtain ⟨gs, h1, h2⟩ := readArcs_ber _ _ _ hm
      cases m with
      | nil => simp [splitArcs] at h
      | cons x m =>
        simp only [splitArcs] at h
        split at h
        · simp only [Option.some.injEq] at h
          subst h
          exact ⟨by omega, by omega, gs, by simpa using h1, h2⟩
        · split at h
          · simp only [Option.some.injEq] at h
            subst h
            refine ⟨by omega, by omega, gs, ?_, h2⟩
            rw [show 1 * 40 + (x - 40) = x by omega]; exact h1
          · simp only [Option.some.injEq] at h
            subst h
            refine ⟨by omega, by omega, gs, ?_, h2⟩
            rw [show 2 * 40 + (x - 80) = x by omega]; exact h1
    · simp at h
  | any => exact absurd rfl hk
  | str k =>
    simp only [decPrim, Option.map_eq_some_iff] at h
    obtain ⟨s, h, rfl⟩ := h
    exact decStr_ber k b s h
  | utcTime =>
    simp only [decPrim, Option.map_eq_some_iff] at h
    obtain ⟨s, h, rfl⟩ := h
    exact decAscii_ber b s h
  | generalizedTime =>
    simp only [decPrim, Option.map_eq_some_iff] at h
    obtain ⟨s, h, rfl⟩ := h
    exact decAscii_ber b s h

end Asn1
end Verif
