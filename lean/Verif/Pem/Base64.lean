import Verif.Pem.Lemmas

/-! Lemmas about base64: CPython's lenient decoder inverts the standard encoder. -/

namespace Verif.Pem
open Spec

/-- Characters the lenient decoder skips. -/
def foreign (c : Char) : Bool := !(alphabet.contains c) && c != '='

/-- Bytes the lenient decoder skips. -/
def foreignByte (b : UInt8) : Bool := (a2bTable b).isNone && b.toNat != 61

theorem a2b_filter (s : Bytes) (q left pads : Nat) :
    a2b q left pads s = a2b q left pads (s.filter (fun b => !foreignByte b)) := by
  induction s generalizing q left pads with
  | nil => rfl
  | cons ch rest ih =>
    by_cases h61 : ch.toNat = 61
    · have hf : foreignByte ch = false := by simp [foreignByte, h61]
      simp only [List.filter, hf, Bool.not_false, a2b, h61, if_true]
      split
      · split
        · rfl
        · exact ih ..
      · exact ih ..
    · cases ht : a2bTable ch with
      | none =>
        have hf : foreignByte ch = true := by simp [foreignByte, h61, ht]
        simp only [List.filter, hf, Bool.not_true, a2b, h61, if_false, ht]
        exact ih ..
      | some v =>
        have hf : foreignByte ch = false := by simp [foreignByte, ht]
        simp only [List.filter, hf, Bool.not_false, a2b, h61, if_false, ht]
        rw [ih 1, ih 2, ih 3, ih 0]

/-! UTF-8 bytes of a character -/

theorem foreignByte_of_ge (b : UInt8) (h : 128 ≤ b.toNat) : foreignByte b = true := by
  have : a2bTable b = none := by
    simp only [a2bTable]
    repeat' split
    all_goals first | rfl | omega
  have h61 : b.toNat ≠ 61 := by omega
  simp [foreignByte, this, h61]

theorem ofNat_ge (n : Nat) (h : 128 ≤ n) (h2 : n < 256) : 128 ≤ (UInt8.ofNat n).toNat := by
  rw [UInt8.toNat_ofNat']; omega

theorem utf8_big (c : Char) (h : 128 ≤ c.toNat) :
    ∀ b ∈ String.utf8EncodeChar c, foreignByte b = true := by
  intro b hb
  apply foreignByte_of_ge
  unfold String.utf8EncodeChar at hb
  have hv : ¬ c.val.toNat ≤ 127 := by have : c.toNat = c.val.toNat := rfl; omega
  simp only [hv, if_false] at hb
  generalize c.val.toNat = v at hb
  split at hb
  · simp only [List.mem_cons, List.not_mem_nil, or_false] at hb
    rcases hb with rfl | rfl <;> apply ofNat_ge <;> omega
  · split at hb
    · simp only [List.mem_cons, List.not_mem_nil, or_false] at hb
      rcases hb with rfl | rfl | rfl <;> apply ofNat_ge <;> omega
    · simp only [List.mem_cons, List.not_mem_nil, or_false] at hb
      rcases hb with rfl | rfl | rfl | rfl <;> apply ofNat_ge <;> omega

theorem utf8_small (c : Char) (h : c.toNat < 128) :
    String.utf8EncodeChar c = [UInt8.ofNat c.toNat] := by
  unfold String.utf8EncodeChar
  have hv : c.val.toNat ≤ 127 := by have : c.toNat = c.val.toNat := rfl; omega
  simp only [hv, if_true]
  rfl

/-- All ASCII characters: the byte is skipped iff the character is foreign. -/
theorem ascii_foreign : ∀ n : Fin 128,
    foreignByte (UInt8.ofNat n.val) = foreign (Char.ofNat n.val) := by decide +kernel

theorem alphabet_ascii : ∀ c ∈ '=' :: alphabet, c.toNat < 128 := by decide

theorem foreign_of_big (c : Char) (h : 128 ≤ c.toNat) : foreign c = true := by
  have h1 : c ∉ '=' :: alphabet := fun hc => by have := alphabet_ascii c hc; omega
  simp only [List.mem_cons, not_or] at h1
  have h2 : alphabet.contains c = false := by
    cases hh : alphabet.contains c
    · rfl
    · exact absurd (List.contains_iff_mem.1 hh) h1.2
  simp only [foreign, h2]; simp [h1.1]

theorem utf8_filter (c : Char) :
    (String.utf8EncodeChar c).filter (fun b => !foreignByte b) =
      if foreign c then [] else String.utf8EncodeChar c := by
  by_cases h : c.toNat < 128
  · have hc : Char.ofNat c.toNat = c := Char.ofNat_toNat c
    have := ascii_foreign ⟨c.toNat, h⟩
    simp only [hc] at this
    rw [utf8_small c h]
    cases hf : foreign c <;> simp [List.filter, this, hf]
  · have h' : 128 ≤ c.toNat := by omega
    rw [foreign_of_big c h', if_pos rfl, List.filter_eq_nil_iff]
    intro b hb; simp [utf8_big c h' b hb]

theorem encodeUtf8_filter (s : Text) :
    (encodeUtf8 s).filter (fun b => !foreignByte b) =
      (encodeUtf8 (s.filter (fun c => !foreign c))) := by
  induction s with
  | nil => rfl
  | cons c s ih =>
    have : encodeUtf8 (c :: s) = String.utf8EncodeChar c ++ encodeUtf8 s := by simp [encodeUtf8]
    rw [this, List.filter_append, ih, utf8_filter]
    cases hf : foreign c <;> simp [List.filter, hf, encodeUtf8]

/-- Decoding ignores all foreign characters. -/
theorem decode_filter (s : Text) :
    b64decode (encodeUtf8 s) = b64decode (encodeUtf8 (s.filter (fun c => !foreign c))) := by
  unfold b64decode
  rw [a2b_filter, encodeUtf8_filter]

/-! The digits of the standard encoding -/

/-- The byte of a digit. -/
def digitByte (n : Nat) : UInt8 := UInt8.ofNat (digit n).toNat

theorem digit_table : ∀ n : Fin 64,
    a2bTable (digitByte n.val) = some n.val ∧ (digitByte n.val).toNat ≠ 61 ∧
    (digit n.val).toNat < 128 ∧ foreign (digit n.val) = false ∧ isSpace (digit n.val) = false ∧
    digit n.val ≠ '\n' ∧ digit n.val ≠ '=' ∧ digit n.val ≠ '-' := by decide +kernel

theorem utf8_digit (n : Nat) (h : n < 64) : String.utf8EncodeChar (digit n) = [digitByte n] :=
  utf8_small _ (digit_table ⟨n, h⟩).2.2.1

theorem encodeUtf8_cons_digit (n : Nat) (h : n < 64) (s : Text) :
    encodeUtf8 (digit n :: s) = digitByte n :: encodeUtf8 s := by
  simp [encodeUtf8, utf8_digit n h]

theorem utf8_pad : String.utf8EncodeChar '=' = [61] := by decide

theorem encodeUtf8_cons_pad (s : Text) : encodeUtf8 ('=' :: s) = 61 :: encodeUtf8 s := by
  simp [encodeUtf8, utf8_pad]

theorem a2b_digit (q left pads n : Nat) (h : n < 64) (rest : Bytes) :
    a2b q left pads (digitByte n :: rest) =
      if q = 0 then a2b 1 n 0 rest
      else if q = 1 then (a2b 2 (n % 16) 0 rest).map (UInt8.ofNat (left * 4 + n / 16) :: ·)
      else if q = 2 then (a2b 3 (n % 4) 0 rest).map (UInt8.ofNat (left * 16 + n / 4) :: ·)
      else (a2b 0 0 0 rest).map (UInt8.ofNat (left * 64 + n) :: ·) := by
  have ht := digit_table ⟨n, h⟩
  rw [a2b, if_neg ht.2.1]
  simp only [ht.1]

/-- One full quadruple. -/
theorem decode_quad (a b c : UInt8) (rest : Text) :
    b64decode (encodeUtf8 (base64 [a, b, c] ++ rest)) =
      (b64decode (encodeUtf8 rest)).map (fun r => a :: b :: c :: r) := by
  have ha := a.toNat_lt; have hb := b.toNat_lt; have hc := c.toNat_lt
  simp only [base64, List.cons_append, List.nil_append]
  generalize hn : a.toNat * 65536 + b.toNat * 256 + c.toNat = n
  have h1 : n / 262144 < 64 := by omega
  have h2 : n / 4096 % 64 < 64 := by omega
  have h3 : n / 64 % 64 < 64 := by omega
  have h4 : n % 64 < 64 := by omega
  rw [encodeUtf8_cons_digit _ h1, encodeUtf8_cons_digit _ h2, encodeUtf8_cons_digit _ h3,
    encodeUtf8_cons_digit _ h4]
  unfold b64decode
  rw [a2b_digit _ _ _ _ h1, if_pos rfl, a2b_digit _ _ _ _ h2, if_neg (by decide), if_pos rfl,
    a2b_digit _ _ _ _ h3, if_neg (by decide), if_neg (by decide), if_pos rfl,
    a2b_digit _ _ _ _ h4, if_neg (by decide), if_neg (by decide), if_neg (by decide)]
  have e1 : n / 262144 * 4 + n / 4096 % 64 / 16 = a.toNat := by omega
  have e2 : n / 4096 % 64 % 16 * 16 + n / 64 % 64 / 4 = b.toNat := by omega
  have e3 : n / 64 % 64 % 4 * 64 + n % 64 = c.toNat := by omega
  rw [e1, e2, e3, UInt8.ofNat_toNat, UInt8.ofNat_toNat, UInt8.ofNat_toNat]
  cases a2b 0 0 0 (encodeUtf8 rest) <;> rfl

theorem base64_cons3 (a b c : UInt8) (rest : Bytes) :
    base64 (a :: b :: c :: rest) = base64 [a, b, c] ++ base64 rest := by
  simp [base64]

/-- The lenient decoder inverts the standard encoder; anything after final padding is ignored. -/
theorem decode_base64 (b : Bytes) : b64decode (encodeUtf8 (base64 b)) = some b := by
  match b with
  | [] => rfl
  | [a] =>
    have ha := a.toNat_lt
    simp only [base64]
    generalize hn : a.toNat * 65536 = n
    have h1 : n / 262144 < 64 := by omega
    have h2 : n / 4096 % 64 < 64 := by omega
    rw [encodeUtf8_cons_digit _ h1, encodeUtf8_cons_digit _ h2, encodeUtf8_cons_pad,
      encodeUtf8_cons_pad]
    unfold b64decode
    rw [a2b_digit _ _ _ _ h1, if_pos rfl, a2b_digit _ _ _ _ h2, if_neg (by decide), if_pos rfl]
    have e1 : n / 262144 * 4 + n / 4096 % 64 / 16 = a.toNat := by omega
    rw [e1, UInt8.ofNat_toNat]
    simp [a2b]
  | [a, b] =>
    have ha := a.toNat_lt; have hb := b.toNat_lt
    simp only [base64]
    generalize hn : a.toNat * 65536 + b.toNat * 256 = n
    have h1 : n / 262144 < 64 := by omega
    have h2 : n / 4096 % 64 < 64 := by omega
    have h3 : n / 64 % 64 < 64 := by omega
    rw [encodeUtf8_cons_digit _ h1, encodeUtf8_cons_digit _ h2, encodeUtf8_cons_digit _ h3,
      encodeUtf8_cons_pad]
    unfold b64decode
    rw [a2b_digit _ _ _ _ h1, if_pos rfl, a2b_digit _ _ _ _ h2, if_neg (by decide), if_pos rfl,
      a2b_digit _ _ _ _ h3, if_neg (by decide), if_neg (by decide), if_pos rfl]
    have e1 : n / 262144 * 4 + n / 4096 % 64 / 16 = a.toNat := by omega
    have e2 : n / 4096 % 64 % 16 * 16 + n / 64 % 64 / 4 = b.toNat := by omega
    rw [e1, e2, UInt8.ofNat_toNat, UInt8.ofNat_toNat]
    simp [a2b]
  | a :: b :: c :: rest =>
    rw [base64_cons3, decode_quad, decode_base64 rest]
    rfl

/-! Characters occurring in the encoding -/

theorem base64_chars (b : Bytes) :
    ∀ c ∈ base64 b, c = '=' ∨ ∃ n, n < 64 ∧ c = digit n := by
  match b with
  | [] => simp [base64]
  | [a] =>
    have ha := a.toNat_lt
    intro c hc; simp only [base64, List.mem_cons, List.not_mem_nil, or_false] at hc
    rcases hc with h | h | h | h
    · exact Or.inr ⟨_, by omega, h⟩
    · exact Or.inr ⟨_, Nat.mod_lt _ (by decide), h⟩
    · exact Or.inl h
    · exact Or.inl h
  | [a, b] =>
    have ha := a.toNat_lt; have hb := b.toNat_lt
    intro c hc; simp only [base64, List.mem_cons, List.not_mem_nil, or_false] at hc
    rcases hc with h | h | h | h
    · exact Or.inr ⟨_, by omega, h⟩
    · exact Or.inr ⟨_, Nat.mod_lt _ (by decide), h⟩
    · exact Or.inr ⟨_, Nat.mod_lt _ (by decide), h⟩
    · exact Or.inl h
  | a :: b :: c :: rest =>
    have ha := a.toNat_lt; have hb := b.toNat_lt; have hc' := c.toNat_lt
    intro x hx; simp only [base64, List.mem_cons] at hx
    rcases hx with h | h | h | h | h
    · exact Or.inr ⟨_, by omega, h⟩
    · exact Or.inr ⟨_, Nat.mod_lt _ (by decide), h⟩
    · exact Or.inr ⟨_, Nat.mod_lt _ (by decide), h⟩
    · exact Or.inr ⟨_, Nat.mod_lt _ (by decide), h⟩
    · exact base64_chars rest x h

theorem base64_not_special (b : Bytes) (c : Char) (hc : c ∈ base64 b) :
    foreign c = false ∧ isSpace c = false ∧ c ≠ '\n' ∧ c ≠ '-' := by
  rcases base64_chars b c hc with rfl | ⟨n, hn, rfl⟩
  · decide
  · have := digit_table ⟨n, hn⟩; exact ⟨this.2.2.2.1, this.2.2.2.2.1, this.2.2.2.2.2.1, this.2.2.2.2.2.2.2⟩

/-! Splitting the encoding at multiples of four characters -/

theorem base64_take (k : Nat) (b : Bytes) : (base64 b).take (4 * k) = base64 (b.take (3 * k)) := by
  induction k generalizing b with
  | zero => simp [base64]
  | succ k ih =>
    have e4 : 4 * (k + 1) = 4 * k + 4 := by omega
    have e3 : 3 * (k + 1) = 3 * k + 3 := by omega
    match b with
    | [] => simp [base64]
    | [a] => simp [base64, e4, e3]
    | [a, b] => simp [base64, e4, e3]
    | a :: b :: c :: rest =>
      rw [e4, e3]
      simp only [base64, List.take_succ_cons, ih]

theorem base64_drop (k : Nat) (b : Bytes) : (base64 b).drop (4 * k) = base64 (b.drop (3 * k)) := by
  induction k generalizing b with
  | zero => simp
  | succ k ih =>
    have e4 : 4 * (k + 1) = 4 * k + 4 := by omega
    have e3 : 3 * (k + 1) = 3 * k + 3 := by omega
    match b with
    | [] => simp [base64]
    | [a] => simp [base64, e4, e3]
    | [a, b] => simp [base64, e4, e3]
    | a :: b :: c :: rest =>
      rw [e4, e3]
      simp only [base64, List.drop_succ_cons, ih]

theorem base64_eq_nil (b : Bytes) : base64 b = [] ↔ b = [] := by
  match b with
  | [] => simp [base64]
  | [a] => simp [base64]
  | [a, b] => simp [base64]
  | a :: b :: c :: rest => simp [base64]

theorem wrap_nil (w : Nat) : wrap w [] = [] := by rw [wrap]; simp

theorem wrap_cons (w : Nat) (s : Text) (hw : w ≠ 0) (hs : s ≠ []) :
    wrap w s = s.take w :: wrap w (s.drop w) := by
  rw [wrap, dif_neg (by simp [hw, hs])]

/-- The wrapped lines put together give the text back. -/
theorem wrap_flatten (w : Nat) (s : Text) (hw : w ≠ 0) : (wrap w s).flatten = s := by
  by_cases hs : s = []
  · subst hs; simp [wrap_nil]
  · have : (s.drop w).length < s.length := by
      have : s.length ≠ 0 := fun e => hs (List.eq_nil_of_length_eq_zero e)
      simp only [List.length_drop]; omega
    rw [wrap_cons w s hw hs, List.flatten_cons, wrap_flatten w _ hw, List.take_append_drop]
termination_by s.length

theorem wrap_mem_sub (w : Nat) (s l : Text) (hl : l ∈ wrap w s) : ∀ c ∈ l, c ∈ s := by
  by_cases hw : w = 0
  · rw [wrap] at hl; simp [hw] at hl
  · intro c hc
    rw [← wrap_flatten w s hw]
    exact List.mem_flatten.2 ⟨l, hl, hc⟩

theorem wrap_ne_nil (w : Nat) (s l : Text) (hl : l ∈ wrap w s) : l ≠ [] := by
  by_cases hs : w = 0 ∨ s = []
  · rw [wrap] at hl; simp [hs] at hl
  · have hw : w ≠ 0 := fun e => hs (Or.inl e)
    have hs' : s ≠ [] := fun e => hs (Or.inr e)
    have : (s.drop w).length < s.length := by
      have : s.length ≠ 0 := fun e => hs' (List.eq_nil_of_length_eq_zero e)
      simp only [List.length_drop]; omega
    rw [wrap_cons w s hw hs'] at hl
    rcases List.mem_cons.1 hl with rfl | hl
    · intro e
      have hlen : s.length ≠ 0 := fun e => hs' (List.eq_nil_of_length_eq_zero e)
      have := congrArg List.length e
      simp only [List.length_take, List.length_nil] at this; omega
    · exact wrap_ne_nil w _ l hl
termination_by s.length

/-- Wrapped at a multiple of four characters, every line decodes on its own. -/
theorem dump_wrap (k : Nat) (hk : k ≠ 0) (b : Bytes) :
    dump (wrap (4 * k) (base64 b)) = some b := by
  by_cases hb : b = []
  · subst hb; simp [base64, wrap_nil, dump]
  · have : (b.drop (3 * k)).length < b.length := by
      have : b.length ≠ 0 := fun e => hb (List.eq_nil_of_length_eq_zero e)
      simp only [List.length_drop]; omega
    rw [wrap_cons _ _ (by omega) (fun e => hb ((base64_eq_nil b).1 e)), base64_take, base64_drop, dump,
      decode_base64, dump_wrap k hk (b.drop (3 * k))]
    simp
termination_by b.length

/-! A run of digits whose number is not a multiple of four does not decode -/

theorem a2b_digits (ds : List Nat) (h : ∀ n ∈ ds, n < 64) (q left pads : Nat) (hq : q < 4)
    (hmod : (q + ds.length) % 4 ≠ 0) : a2b q left pads (ds.map digitByte) = none := by
  induction ds generalizing q left pads with
  | nil => have : q ≠ 0 := by simp at hmod; omega
           simp [a2b, this]
  | cons n ds ih =>
    have hn : n < 64 := h n (by simp)
    have hds : ∀ m ∈ ds, m < 64 := fun m hm => h m (by simp [hm])
    rw [List.map_cons, a2b_digit _ _ _ _ hn]
    simp only [List.length_cons] at hmod
    by_cases h0 : q = 0
    · rw [if_pos h0, ih hds 1 _ _ (by omega) (by omega)]
    · rw [if_neg h0]
      by_cases h1 : q = 1
      · rw [if_pos h1, ih hds 2 _ _ (by omega) (by omega)]; rfl
      · rw [if_neg h1]
        by_cases h2 : q = 2
        · rw [if_pos h2, ih hds 3 _ _ (by omega) (by omega)]; rfl
        · rw [if_neg h2, ih hds 0 _ _ (by omega) (by omega)]; rfl

/-- Up to the last full quadruple the encoding consists of digits only. -/
theorem base64_take_digits (w : Nat) (b : Bytes) (hw : w ≤ 4 * (b.length / 3)) :
    ∃ ds : List Nat, (∀ n ∈ ds, n < 64) ∧ ds.length = w ∧ (base64 b).take w = ds.map digit := by
  suffices H : ∀ b : Bytes, ∃ ds : List Nat, (∀ n ∈ ds, n < 64) ∧ ds.length = 4 * (b.length / 3) ∧
      ∃ tl, base64 b = ds.map digit ++ tl by
    obtain ⟨ds, h1, h2, tl, h3⟩ := H b
    refine ⟨ds.take w, fun n hn => h1 n (List.mem_of_mem_take hn), ?_, ?_⟩
    · simp only [List.length_take]; omega
    · rw [h3, List.take_append_of_le_length (by simp; omega), List.map_take]
  exact base64_take_digits_aux
where
  base64_take_digits_aux (b : Bytes) : ∃ ds : List Nat, (∀ n ∈ ds, n < 64) ∧
      ds.length = 4 * (b.length / 3) ∧ ∃ tl, base64 b = ds.map digit ++ tl := by
    match b with
    | [] => exact ⟨[], by simp, by simp, [], by simp [base64]⟩
    | [a] => exact ⟨[], by simp, by simp, base64 [a], by simp⟩
    | [a, b] => exact ⟨[], by simp, by simp, base64 [a, b], by simp⟩
    | a :: b :: c :: rest =>
      obtain ⟨ds, h1, h2, tl, h3⟩ := base64_take_digits_aux rest
      have ha := a.toNat_lt; have hb := b.toNat_lt; have hc := c.toNat_lt
      refine ⟨(a.toNat * 65536 + b.toNat * 256 + c.toNat) / 262144 ::
        (a.toNat * 65536 + b.toNat * 256 + c.toNat) / 4096 % 64 ::
        (a.toNat * 65536 + b.toNat * 256 + c.toNat) / 64 % 64 ::
        (a.toNat * 65536 + b.toNat * 256 + c.toNat) % 64 :: ds, ?_, ?_, tl, ?_⟩
      · intro n hn
        simp only [List.mem_cons] at hn
        rcases hn with rfl | rfl | rfl | rfl | hn
        · omega
        · omega
        · omega
        · omega
        · exact h1 n hn
      · simp only [List.length_cons]; omega
      · simp only [base64, h3]; simp

theorem encodeUtf8_digits (ds : List Nat) (h : ∀ n ∈ ds, n < 64) :
    encodeUtf8 (ds.map digit) = ds.map digitByte := by
  induction ds with
  | nil => rfl
  | cons n ds ih =>
    rw [List.map_cons, encodeUtf8_cons_digit _ (h n (by simp)), ih (fun m hm => h m (by simp [hm]))]
    rfl

/-- A first line of `w` characters, `w` not a multiple of four, makes the per-line decoding fail. -/
theorem dump_wrap_bad (w : Nat) (b : Bytes) (hw : w % 4 ≠ 0) (hlen : w ≤ 4 * (b.length / 3)) :
    dump (wrap w (base64 b)) = none := by
  have hb : b ≠ [] := by rintro rfl; simp at hlen; omega
  rw [wrap_cons _ _ (by omega) (fun e => hb ((base64_eq_nil b).1 e)), dump]
  obtain ⟨ds, h1, h2, h3⟩ := base64_take_digits w b hlen
  rw [h3, encodeUtf8_digits ds h1]
  unfold b64decode
  rw [a2b_digits ds h1 0 0 0 (by decide) (by omega)]
  rfl

end Verif.Pem
