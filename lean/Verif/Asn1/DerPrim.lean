import Verif.Asn1.DerLemmas

/-! # Contents octets: what the encoder writes is what the rules ask for -/

namespace Verif
namespace Der

open Asn1

/-! ## Bits -/

theorem bitsOf_natBits (x : UInt8) : bitsOf x = natBits 8 x.toNat := by
  simp [bitsOf, natBits, Nat.div_div_eq_div_mul]

theorem flatMap_bitsOf : ∀ b : Octets, b.flatMap bitsOf = unpackBits b
  | [] => rfl
  | x :: b => by rw [List.flatMap_cons, unpackBits, bitsOf_natBits, flatMap_bitsOf b]

theorem bitsOf_length (x : UInt8) : (bitsOf x).length = 8 := rfl

theorem flatMap_bitsOf_length : ∀ b : Octets, (b.flatMap bitsOf).length = 8 * b.length
  | [] => rfl
  | x :: b => by rw [List.flatMap_cons, List.length_append, bitsOf_length, flatMap_bitsOf_length b]; simp; omega

theorem bitsNat_bitsOf : ∀ n : Fin 256, bitsNat (bitsOf (UInt8.ofNat n)) 0 = n := by decide +kernel

theorem bitsOf_inj (x y : UInt8) (h : bitsOf x = bitsOf y) : x = y := by
  have e : ∀ z : UInt8, bitsNat (bitsOf z) 0 = z.toNat := by
    intro z
    have := bitsNat_bitsOf ⟨z.toNat, z.toNat_lt⟩
    simpa using this
  have := e x
  rw [h, e y] at this
  exact UInt8.toNat_inj.1 this.symm

theorem flatMap_bitsOf_inj : ∀ a b : Octets, a.flatMap bitsOf = b.flatMap bitsOf → a = b
  | [], [], _ => rfl
  | [], y :: b, h => by
    have := congrArg List.length h
    rw [flatMap_bitsOf_length, flatMap_bitsOf_length] at this
    simp at this
  | x :: a, [], h => by
    have := congrArg List.length h
    rw [flatMap_bitsOf_length, flatMap_bitsOf_length] at this
    simp at this
  | x :: a, y :: b, h => by
    rw [List.flatMap_cons, List.flatMap_cons] at h
    obtain ⟨h1, h2⟩ := List.append_inj h rfl
    rw [bitsOf_inj x y h1, flatMap_bitsOf_inj a b h2]

theorem bits_iff (bs : List Bool) (c : Octets) :
    (∃ u body, c = u :: body ∧ u.toNat ≤ 7 ∧ body.flatMap bitsOf = bs ++ List.replicate u.toNat false ∧
      (body = [] → u = 0)) ↔ c = encBits bs := by
  obtain ⟨h1, h2⟩ := unpack_pack bs.length bs (Nat.le_refl _)
  have hp : (UInt8.ofNat ((8 - bs.length % 8) % 8)).toNat = (8 - bs.length % 8) % 8 := toNat_ofNat _ (by omega)
  constructor
  · rintro ⟨u, body, rfl, hu, hb, h0⟩
    have hl := congrArg List.length hb
    rw [flatMap_bitsOf_length, List.length_append, List.length_replicate] at hl
    have hu' : u.toNat = (8 - bs.length % 8) % 8 := by omega
    unfold encBits
    rw [← flatMap_bitsOf, ← hu', ← hb] at h1
    rw [flatMap_bitsOf_inj _ _ h1, uint8_ext u _ hu']
  · rintro rfl
    refine ⟨_, _, rfl, by omega, ?_, ?_⟩
    · rw [flatMap_bitsOf, h1, hp]
    · intro h
      rw [h] at h2
      simp only [List.length_nil] at h2
      have : (8 - bs.length % 8) % 8 = 0 := by omega
      rw [this]; rfl

/-! ## Object identifiers -/

theorem each2_groups : ∀ (l : List Nat) (gs : List Octets), each2 Groups l gs ↔ gs = l.map b128
  | [], [] => by simp [each2]
  | [], _ :: _ => by simp [each2]
  | _ :: _, [] => by simp [each2]
  | n :: l, g :: gs => by simp [each2, groups_iff, each2_groups l gs]

theorem oid_iff (x y : Nat) (r : List Nat) (c : Octets) :
    (x ≤ 2 ∧ (x < 2 → y ≤ 39) ∧ ∃ gs, each2 Groups ((x * 40 + y) :: r) gs ∧ c = gs.flatten) ↔
      encOid (x :: y :: r) = some c := by
  have hf : (∃ gs, each2 Groups ((x * 40 + y) :: r) gs ∧ c = gs.flatten) ↔ ((x * 40 + y) :: r).flatMap b128 = c := by
    constructor
    · rintro ⟨gs, h, rfl⟩
      rw [each2_groups] at h
      rw [h, List.flatMap_def]
    · intro h
      exact ⟨_, (each2_groups _ _).2 rfl, by rw [← h, List.flatMap_def]⟩
  rw [hf]
  match x with
  | 0 =>
    simp only [encOid, mergeArcs]
    by_cases hy : y ≤ 39
    · simp [hy]
    · simp [hy]
  | 1 =>
    simp only [encOid, mergeArcs]
    by_cases hy : y ≤ 39
    · simp [hy, Nat.add_comm]
    · simp [hy]
  | 2 => simp [encOid, mergeArcs, Nat.add_comm]
  | n + 3 =>
    simp only [encOid, mergeArcs]
    constructor
    · rintro ⟨h, _⟩; omega
    · intro h; simp at h

/-! ## Strings -/

theorem character_iff (k : CharKind) (ch : Char) (hk : k = .utf16be → ch.toNat < 65536) (b : Octets) :
    Character k ch b ↔ encChar k ch = some b := by
  cases k with
  | ascii =>
    simp only [Character, encChar]
    constructor
    · rintro ⟨x, rfl, hx, hc⟩
      rw [if_pos hc, ← uint8_ext x _ hx]
    · intro h
      split at h
      · rename_i hc
        simp only [Option.some.injEq] at h
        exact ⟨_, h.symm, toNat_ofNat _ (by omega), hc⟩
      · simp at h
  | latin1 =>
    simp only [Character, encChar]
    constructor
    · rintro ⟨x, rfl, hx⟩
      have := x.toNat_lt
      rw [if_pos (by omega), ← uint8_ext x _ hx]
    · intro h
      split at h
      · rename_i hc
        simp only [Option.some.injEq] at h
        exact ⟨_, h.symm, toNat_ofNat _ (by omega)⟩
      · simp at h
  | utf8 => simp [Character, encChar, eq_comm]
  | utf16be =>
    have hc := hk rfl
    simp only [Character, encChar, if_pos hc, Option.some.injEq, beBytes2 _ hc]
    constructor
    · rintro ⟨x, y, rfl, h⟩
      have hx := x.toNat_lt
      have hy := y.toNat_lt
      rw [uint8_ext x (ch.toNat / 256) (by omega), uint8_ext y (ch.toNat % 256) (by omega)]
    · rintro rfl
      refine ⟨_, _, rfl, ?_⟩
      rw [toNat_ofNat _ (by omega), toNat_ofNat _ (by omega)]; omega
  | utf32be =>
    have hc := (char_lt ch).1
    have hb := beNat_beBytes 4 ch.toNat 0
    have hl := beBytes_length 4 ch.toNat
    rw [Nat.mod_eq_of_lt (Nat.lt_trans hc (by decide)), Nat.zero_mul, Nat.zero_add] at hb
    clear hc
    simp only [Character, encChar, Option.some.injEq]
    constructor
    · rintro ⟨x, y, z, w, rfl, h⟩
      refine number_inj _ _ (by rw [hl]; rfl) ?_
      rw [number_beNat, hb, number_beNat]
      simp only [beNat]
      omega
    · rintro rfl
      match he : beBytes 4 ch.toNat, hl with
      | [x, y, z, w], _ =>
        refine ⟨x, y, z, w, rfl, ?_⟩
        rw [he] at hb
        simp only [beNat, Nat.zero_mul, Nat.zero_add] at hb
        exact hb

theorem string_iff (k : CharKind) : ∀ (s : List Char), (∀ ch ∈ s, k = .utf16be → ch.toNat < 65536) → ∀ c : Octets,
    (∃ bs, each2 (Character k) s bs ∧ c = bs.flatten) ↔ encStr k s = some c
  | [], _, c => by
    constructor
    · rintro ⟨bs, h, rfl⟩
      cases bs with
      | nil => rfl
      | cons => exact h.elim
    · intro h
      simp only [encStr, Option.some.injEq] at h
      exact ⟨[], trivial, h.symm⟩
  | ch :: s, hk, c => by
    have h1 := character_iff k ch (hk ch (by simp))
    have h2 := string_iff k s (fun x hx => hk x (by simp [hx]))
    constructor
    · rintro ⟨bs, h, rfl⟩
      cases bs with
      | nil => exact h.elim
      | cons b bs =>
        have e1 := (h1 b).1 h.1
        have e2 := (h2 bs.flatten).1 ⟨bs, h.2, rfl⟩
        simp [encStr, e1, e2]
    · intro h
      simp only [encStr] at h
      cases e1 : encChar k ch with
      | none => simp [e1] at h
      | some b =>
        cases e2 : encStr k s with
        | none => simp [e1, e2] at h
        | some r =>
          simp only [e1, e2, Option.some.injEq] at h
          obtain ⟨bs, hb, rfl⟩ := (h2 r).2 e2
          exact ⟨b :: bs, ⟨(h1 b).2 e1, hb⟩, by simp [← h]⟩

theorem ascii_iff : ∀ (s : List Char), (∀ ch ∈ s, ch.toNat < 128) → ∀ c : Octets,
    c.map UInt8.toNat = s.map Char.toNat ↔ encStr .ascii s = some c
  | [], _, c => by simp [encStr, eq_comm]
  | ch :: s, hk, c => by
    have hc := hk ch (by simp)
    have h2 := ascii_iff s (fun x hx => hk x (by simp [hx]))
    constructor
    · intro h
      cases c with
      | nil => simp at h
      | cons x c =>
        simp only [List.map_cons, List.cons.injEq] at h
        simp only [encStr, encChar, if_pos hc, (h2 c).1 h.2]
        rw [← uint8_ext x _ h.1]; rfl
    · intro h
      simp only [encStr, encChar, if_pos hc] at h
      cases e2 : encStr .ascii s with
      | none => simp [e2] at h
      | some r =>
        simp only [e2, Option.some.injEq] at h
        subst h
        simp only [List.singleton_append, List.map_cons, (h2 r).2 e2, toNat_ofNat _ (show ch.toNat < 256 by omega)]

theorem digit_bounds (c : Char) (h : digit c) : 48 ≤ c.toNat ∧ c.toNat ≤ 57 := by
  obtain ⟨h1, h2⟩ := h
  have e1 : ('0' : Char).toNat ≤ c.toNat := h1
  have e2 : c.toNat ≤ ('9' : Char).toNat := h2
  exact ⟨e1, e2⟩

theorem timestamp_ascii (n : Nat) (s : List Char) (h : timestamp n s) : ∀ ch ∈ s, ch.toNat < 128 := by
  obtain ⟨ds, rfl, _, hd⟩ := h
  intro ch hm
  rcases List.mem_append.1 hm with hm | hm
  · have := digit_bounds ch (hd ch hm); omega
  · simp only [List.mem_singleton] at hm
    subst hm; decide

theorem digit_ne (c d : Char) (h : digit c) (hd : d.toNat < 48) : c ≠ d := by
  rintro rfl
  have := digit_bounds c h
  omega

/-- What the encoder asks for, of a text whose characters are known. -/
theorem time_ok (lo hi : Nat) (s : List Char) (h : ∀ c ∈ s, digit c ∨ c = '.' ∨ c = 'Z') (hz : s.getLast? = some 'Z')
    (hp : plainFraction s = true) (h1 : lo < s.length) (h2 : s.length < hi) : timeOk lo hi s = true := by
  have hall : ∀ c ∈ s, (c != '+' && c != '-' && c != ',') = true := by
    intro c hm
    rcases h c hm with hd | rfl | rfl
    · simp [digit_ne c '+' hd (by decide), digit_ne c '-' hd (by decide), digit_ne c ',' hd (by decide)]
    · decide
    · decide
  unfold timeOk
  rw [List.all_eq_true.2 hall, trimTime_plain s hp, hz]
  simp [h1, h2]

theorem timestamp_plain (n : Nat) (s : List Char) (h : timestamp n s) : plainFraction s = true := by
  obtain ⟨ds, rfl, -, hd⟩ := h
  have hn : ∀ c ∈ ds ++ ['Z'], c ≠ '.' := by
    intro c hm
    rcases List.mem_append.1 hm with hm | hm
    · exact digit_ne c '.' (hd c hm) (by decide)
    · simp only [List.mem_singleton] at hm; subst hm; decide
  rcases dot_cases (ds ++ ['Z']) with ⟨-, h⟩ | ⟨p, f, h, -, -⟩
  · simp only [plainFraction, h]
  · exact absurd rfl (hn '.' (by rw [h]; simp))

theorem timestamp_ok (n lo hi : Nat) (s : List Char) (h : timestamp n s) (h1 : lo < n + 1) (h2 : n + 1 < hi) :
    timeOk lo hi s = true := by
  have hp := timestamp_plain n s h
  obtain ⟨ds, rfl, hl, hd⟩ := h
  refine time_ok lo hi _ ?_ (by simp) hp (by simp; omega) (by simp; omega)
  intro c hm
  rcases List.mem_append.1 hm with hm | hm
  · exact .inl (hd c hm)
  · simp only [List.mem_singleton] at hm; exact .inr (.inr hm)

theorem fractional_chars (n : Nat) (s : List Char) (h : fractional n s) : ∀ c ∈ s, digit c ∨ c = '.' ∨ c = 'Z' := by
  obtain ⟨ds, fs, rfl, -, hd, -, -, hf⟩ := h
  intro c hm
  simp only [List.mem_append, List.mem_cons, List.not_mem_nil, or_false] at hm
  rcases hm with (hm | hm | hm) | hm
  · exact .inl (hd c hm)
  · exact .inr (.inl hm)
  · exact .inl (hf c hm).1
  · exact .inr (.inr hm)

theorem fractional_plain (n : Nat) (s : List Char) (h : fractional n s) : plainFraction s = true := by
  obtain ⟨ds, fs, rfl, -, hd, hne, hl, hf⟩ := h
  have h1 : (ds ++ '.' :: fs ++ ['Z']).dropWhile (· != '.') = '.' :: (fs ++ ['Z']) := by
    rw [List.append_assoc, List.dropWhile_append_of_pos (fun c hc => by simpa using digit_ne c '.' (hd c hc) (by decide))]
    simp
  have h2 : ∀ c ∈ fs ++ ['Z'], c ≠ '.' ∧ c ≠ '0' := by
    intro c hm
    rcases List.mem_append.1 hm with hm | hm
    · exact ⟨digit_ne c '.' (hf c hm).1 (by decide), (hf c hm).2⟩
    · simp only [List.mem_singleton] at hm; subst hm; decide
  simp only [plainFraction, h1, Bool.and_eq_true, Bool.not_eq_true', bne_iff_ne, List.contains_eq_mem, decide_eq_false_iff_not]
  refine ⟨⟨fun h => (h2 _ h).1 rfl, fun h => (h2 _ (List.mem_of_mem_take h)).2 rfl⟩, ?_⟩
  cases fs with
  | nil => exact absurd rfl hne
  | cons c fs =>
    have := digit_bounds c (hf c (by simp)).1
    simp only [List.cons_append, List.head?_cons, ne_eq, Option.some.injEq]
    rintro rfl
    revert this; decide

theorem fractional_ok (s : List Char) (h : fractional 14 s) : timeOk 12 20 s = true := by
  have hp := fractional_plain 14 s h
  have hc := fractional_chars 14 s h
  obtain ⟨ds, fs, rfl, hl, -, hne, hf, -⟩ := h
  exact time_ok 12 20 _ hc List.getLast?_concat hp (by simp; omega) (by simp; omega)

theorem fractional_ascii (n : Nat) (s : List Char) (h : fractional n s) : ∀ ch ∈ s, ch.toNat < 128 := by
  intro ch hm
  rcases fractional_chars n s h ch hm with hd | rfl | rfl
  · have := digit_bounds ch hd; omega
  · decide
  · decide

/-! ## All of them -/

theorem contents_iff (named : Bool) (k : Prim) (v : Val) (c : Octets) (hl : primLegal k v = true) (hc : careful named k v) :
    Contents named k v c ↔ encPrim k v = some c := by
  cases k with
  | boolean =>
    cases v <;> simp [primLegal] at hl
    rename_i i
    simp only [Contents, encPrim, Option.some.injEq]
    rcases hl with rfl | rfl <;> simp [eq_comm]
  | integer =>
    cases v <;> simp [primLegal] at hl
    rename_i i
    simp only [Contents, encPrim, Option.some.injEq]
    rw [integer_iff i c hc, eq_comm]
  | enumerated =>
    cases v <;> simp [primLegal] at hl
    rename_i i
    simp only [Contents, encPrim, Option.some.injEq]
    rw [integer_iff i c hc, eq_comm]
  | bitString =>
    cases v <;> simp [primLegal] at hl
    rename_i bs
    simp only [Contents, encPrim, Option.some.injEq]
    constructor
    · rintro ⟨u, body, h1, h2, h3, h4, _⟩
      exact ((bits_iff bs c).1 ⟨u, body, h1, h2, h3, h4⟩).symm
    · intro h
      obtain ⟨u, body, h1, h2, h3, h4⟩ := (bits_iff bs c).2 h.symm
      exact ⟨u, body, h1, h2, h3, h4, hc⟩
  | octetString =>
    cases v <;> simp [primLegal] at hl
    simp [Contents, encPrim, eq_comm]
  | null =>
    cases v <;> simp [primLegal] at hl
    simp [Contents, encPrim, eq_comm]
  | oid =>
    cases v <;> simp [primLegal] at hl
    rename_i l
    match l with
    | [] => simp at hl
    | [_] => simp at hl
    | x :: y :: r => exact oid_iff x y r c
  | any =>
    cases v <;> simp [primLegal] at hl
    simp [Contents, encPrim, eq_comm]
  | str k =>
    cases v with
    | str s =>
      refine string_iff k s ?_ c
      intro ch hch hk
      subst hk
      exact hc ch hch
    | _ => simp [primLegal] at hl
  | utcTime =>
    cases v with
    | str s =>
      simp only [Contents, encPrim, timestamp_ok 12 10 14 s hc (by decide) (by decide), if_true, trimTime_plain s (timestamp_plain 12 s hc)]
      rw [ascii_iff s (timestamp_ascii 12 s hc) c]
      exact ⟨fun h => h.2, fun h => ⟨hc, h⟩⟩
    | _ => simp [primLegal] at hl
  | generalizedTime =>
    cases v with
    | str s =>
      have h1 : timeOk 12 20 s = true := hc.elim (timestamp_ok 14 12 20 s · (by decide) (by decide)) (fractional_ok s)
      have h2 : plainFraction s = true := hc.elim (timestamp_plain 14 s) (fractional_plain 14 s)
      have h3 : ∀ ch ∈ s, ch.toNat < 128 := hc.elim (timestamp_ascii 14 s) (fractional_ascii 14 s)
      simp only [Contents, encPrim, h1, if_true, trimTime_plain s h2]
      rw [ascii_iff s h3 c]
      exact ⟨fun h => h.2, fun h => ⟨hc, h⟩⟩
    | _ => simp [primLegal] at hl

end Der
end Verif
