import Verif.Pem.Base64
import Verif.Pem.Versions
import Verif.Spec.Newlines

/-! Lemmas: `pem.py` on the UTF-8 bytes of a text does what it does on the text. -/

namespace Verif.Pem.Octets
open Verif.Spec

theorem encodeUtf8_inj (a b : Text) (h : encodeUtf8 a = encodeUtf8 b) : a = b := by
  have h1 : a.utf8Encode = b.utf8Encode := by
    unfold encodeUtf8 at h
    simp only [List.utf8Encode, h]
  exact String.ofList_injective (String.toByteArray_inj.1 (by simpa using h1))

theorem encode_cons (c : Char) (s : Text) :
    encodeUtf8 (c :: s) = String.utf8EncodeChar c ++ encodeUtf8 s := by simp [encodeUtf8]

theorem encode_append (a b : Text) : encodeUtf8 (a ++ b) = encodeUtf8 a ++ encodeUtf8 b := by
  simp [encodeUtf8]

/-! ### base64 -/

theorem nextValid_foreign (b : UInt8) (s : Bytes) (h61 : b.toNat ≠ 61) (h : a2bTable b = none) :
    nextValid (b :: s) = nextValid s := by simp [nextValid, h61, h]

theorem a2bTable_lt (b : UInt8) (v : Nat) (h : a2bTable b = some v) : v < 64 := by
  simp only [a2bTable] at h
  repeat' split at h
  all_goals first | (injection h with h; omega) | cases h

/-- After a padding character in the third position the newer decoder has `pads = 1`; unless
another padding character comes next the older one has skipped it. -/
theorem a2b_pads (s : Bytes) (left : Nat) :
    Pem.a2b 2 left 1 s =
      if (nextValid s).map UInt8.toNat = some 61 then some [] else Pem.a2b 2 left 0 s := by
  induction s with
  | nil => simp [nextValid, Pem.a2b]
  | cons b s ih =>
    by_cases h61 : b.toNat = 61
    · simp [nextValid, Pem.a2b, h61]
    · cases ht : a2bTable b with
      | none =>
        rw [nextValid_foreign b s h61 ht]
        simp only [Pem.a2b, h61, if_false, ht]
        exact ih
      | some v => simp [nextValid, Pem.a2b, h61, ht]

/-- Bits left over in each of the four positions. -/
def bitsAt (q : Nat) : Nat := if q = 0 then 0 else if q = 1 then 6 else if q = 2 then 4 else 2

theorem a2b_same (s : Bytes) : ∀ (q left : Nat), q < 4 → (q = 0 → left = 0) →
    a2b q left (bitsAt q) s = Pem.a2b q left 0 s := by
  induction s with
  | nil =>
    intro q left hq _
    have : q = 0 ∨ q = 1 ∨ q = 2 ∨ q = 3 := by omega
    rcases this with rfl | rfl | rfl | rfl <;> rfl
  | cons b s ih =>
    intro q left hq h0
    have hq' : q = 0 ∨ q = 1 ∨ q = 2 ∨ q = 3 := by omega
    by_cases h61 : b.toNat = 61
    · rcases hq' with rfl | rfl | rfl | rfl
      · simpa [a2b, Pem.a2b, h61] using ih 0 left (by omega) h0
      · simpa [a2b, Pem.a2b, h61] using ih 1 left (by omega) (by omega)
      · have := a2b_pads s left
        simp only [Pem.a2b, h61, a2b]
        simp only [Nat.lt_irrefl, false_or, true_and, if_true, ne_eq, ge_iff_le,
          Nat.le_refl, Nat.zero_add, this]
        by_cases hn : (nextValid s).map UInt8.toNat = some 61
        · simp [hn]
        · simp [hn, ih 2 left (by omega) (by omega)]
      · simp [a2b, Pem.a2b, h61]
    · cases ht : a2bTable b with
      | none =>
        simp only [a2b, Pem.a2b, h61, if_false, ht]
        exact ih q left hq h0
      | some v =>
        have hv := a2bTable_lt b v ht
        simp only [a2b, Pem.a2b, h61, if_false, ht]
        rcases hq' with rfl | rfl | rfl | rfl
        · cases h0 rfl
          simpa [bitsAt] using ih 1 v (by omega) (by omega)
        · have e1 : (left * 64 + v) % 16 = v % 16 := by omega
          have e2 : (left * 64 + v) / 16 = left * 4 + v / 16 := by omega
          simpa [bitsAt, e1, e2] using congrArg (Option.map _) (ih 2 (v % 16) (by omega) (by omega))
        · have e1 : (left * 64 + v) % 4 = v % 4 := by omega
          have e2 : (left * 64 + v) / 4 = left * 16 + v / 4 := by omega
          simpa [bitsAt, e1, e2] using congrArg (Option.map _) (ih 3 (v % 4) (by omega) (by omega))
        · simpa [bitsAt, Nat.mod_one] using
            congrArg (Option.map _) (ih 0 0 (by omega) (fun _ => rfl))

/-- The two base64 decoders agree on all byte strings. -/
theorem b64decode_same (s : Bytes) : b64decode s = Pem.b64decode s :=
  a2b_same s 0 0 (by omega) (fun _ => rfl)

/-! ### Lines -/

theorem utf8_ge (c : Char) (h : 128 ≤ c.toNat) :
    ∀ b ∈ String.utf8EncodeChar c, 128 ≤ b.toNat := by
  intro b hb
  unfold String.utf8EncodeChar at hb
  have hv : ¬ c.val.toNat ≤ 127 := by have : c.toNat = c.val.toNat := rfl; omega
  simp only [hv, if_false] at hb
  generalize c.val.toNat = v at hb
  split at hb
  · simp only [List.mem_cons, List.not_mem_nil, or_false] at hb
    rcases hb with rfl | rfl <;> apply ofNat_ge <;> omega
  · split at hb
    · simp only [List.mem_cons, List.not_mem_nil, or_false] at hb
      rcases hb with rfl | rfl | rfl <;> apply ofNat_ge <;> omega
    · simp only [List.mem_cons, List.not_mem_nil, or_false] at hb
      rcases hb with rfl | rfl | rfl | rfl <;> apply ofNat_ge <;> omega

theorem utf8_newline (c : Char) : ∀ b ∈ String.utf8EncodeChar c, b = 10 → c = '\n' := by
  intro b hb h
  by_cases hc : c.toNat < 128
  · rw [utf8_small c hc] at hb
    simp only [List.mem_singleton] at hb
    have : (UInt8.ofNat c.toNat).toNat = 10 := by rw [← hb, h]; rfl
    rw [UInt8.toNat_ofNat'] at this
    have h10 : c.toNat = 10 := by omega
    have := Char.ofNat_toNat c
    rw [h10] at this
    exact this.symm
  · have := utf8_ge c (by omega) b hb
    rw [h] at this
    exact absurd this (by decide)

theorem readline_bytes (l s : Bytes) (h : (10 : UInt8) ∉ l) :
    readline (l ++ s) = (l ++ (readline s).1, (readline s).2) := by
  induction l with
  | nil => rfl
  | cons b l ih =>
    have hb : b ≠ 10 := fun e => h (by simp [e])
    simp only [List.cons_append, readline, hb, if_false]
    rw [ih (fun hm => h (by simp [hm]))]

theorem readline_encode (t : Text) :
    readline (encodeUtf8 t) = (encodeUtf8 (Pem.readline t).1, encodeUtf8 (Pem.readline t).2) := by
  induction t with
  | nil => rfl
  | cons c t ih =>
    by_cases hc : c = '\n'
    · subst hc
      rw [encode_cons, show String.utf8EncodeChar '\n' = [10] by decide]
      simp [readline, Pem.readline, encodeUtf8, show String.utf8EncodeChar '\n' = [10] by decide]
    · rw [encode_cons, readline_bytes _ _ (fun hm => hc (utf8_newline c 10 hm rfl)), ih]
      simp [Pem.readline, hc, encode_cons]

/-! ### Blanks -/

theorem utf8_blank (c : Char) :
    (asciiBlank c = true ∧ ∃ b, String.utf8EncodeChar c = [b] ∧ isSpace b = true) ∨
    (asciiBlank c = false ∧ String.utf8EncodeChar c ≠ [] ∧
      ∀ b ∈ String.utf8EncodeChar c, isSpace b = false) := by
  by_cases hc : c.toNat < 128
  · have key : ∀ n : Fin 128, isSpace (UInt8.ofNat n.val) = asciiBlank (Char.ofNat n.val) := by
      decide +kernel
    have := key ⟨c.toNat, hc⟩
    simp only [Char.ofNat_toNat] at this
    rw [utf8_small c hc]
    cases hb : asciiBlank c
    · right; rw [hb] at this; simp [this]
    · left; rw [hb] at this; exact ⟨rfl, _, rfl, this⟩
  · right
    refine ⟨?_, ?_, ?_⟩
    · cases hb : asciiBlank c
      · rfl
      · have : ∀ d ∈ ['\t', '\n', '\x0b', '\x0c', '\r', ' '], d.toNat < 128 := by decide
        exact absurd (this c (by simpa [asciiBlank] using hb)) hc
    · intro h; have := String.length_utf8EncodeChar c; rw [h] at this
      have := c.utf8Size_pos; simp at *
    · intro b hb
      have h1 := utf8_ge c (by omega) b hb
      have a1 : ¬ b.toNat ≤ 13 := by omega
      have a2 : b.toNat ≠ 32 := by omega
      simp [isSpace, a1, a2]

theorem dropWhile_flat {α β} (f : α → List β) (p : α → Bool) (q : β → Bool)
    (h : ∀ a, (p a = true ∧ ∀ b ∈ f a, q b = true) ∨
      (p a = false ∧ f a ≠ [] ∧ ∀ b ∈ f a, q b = false)) (l : List α) :
    (l.flatMap f).dropWhile q = (l.dropWhile p).flatMap f := by
  induction l with
  | nil => rfl
  | cons a l ih =>
    rw [List.flatMap_cons]
    rcases h a with ⟨h1, h2⟩ | ⟨h1, h2, h3⟩
    · rw [dropWhile_append_all q _ _ h2, ih, List.dropWhile_cons_of_pos h1]
    · rw [List.dropWhile_cons_of_neg (by simp [h1]), List.flatMap_cons]
      cases hf : f a with
      | nil => exact absurd hf h2
      | cons b r =>
        rw [List.cons_append, List.dropWhile_cons_of_neg]
        have := h3 b (by rw [hf]; simp)
        simp [this]

/-- Stripping the blanks of the C locale. -/
def stripBlank (s : Text) : Text :=
  ((s.dropWhile asciiBlank).reverse.dropWhile asciiBlank).reverse

theorem strip_encode (s : Text) : strip (encodeUtf8 s) = encodeUtf8 (stripBlank s) := by
  unfold strip stripBlank encodeUtf8
  rw [dropWhile_flat _ asciiBlank isSpace, List.reverse_flatMap,
    dropWhile_flat _ asciiBlank isSpace, List.reverse_flatMap]
  · simp [Function.comp_def]
  · intro c
    rcases utf8_blank c with ⟨h1, b, h2, h3⟩ | ⟨h1, h2, h3⟩
    · left; simp [h1, h2, h3]
    · right; simpa [h1, h2] using h3
  · intro c
    rcases utf8_blank c with ⟨h1, b, h2, h3⟩ | ⟨h1, h2, h3⟩
    · left; simp [h1, h2, h3]
    · right; exact ⟨h1, h2, h3⟩

theorem dropWhile_congr {α} (p q : α → Bool) (l : List α) (h : ∀ a ∈ l, p a = q a) :
    l.dropWhile p = l.dropWhile q := by
  induction l with
  | nil => rfl
  | cons a l ih =>
    simp only [List.dropWhile, h a (by simp)]
    rw [ih (fun b hb => h b (by simp [hb]))]

theorem stripBlank_eq (s : Text) (h : ∀ c ∈ s, Pem.isSpace c = asciiBlank c) :
    stripBlank s = Pem.strip s := by
  unfold stripBlank Pem.strip
  rw [dropWhile_congr Pem.isSpace asciiBlank s h, dropWhile_congr Pem.isSpace asciiBlank]
  intro c hc
  exact h c ((List.dropWhile_suffix _).subset (by simpa using hc))

/-! ### Line ends -/

theorem crlf_suffix (a b : Text) (h : CrLf (a ++ b)) : CrLf b := by
  intro x y e
  exact h (a ++ x) y (by rw [e, List.append_assoc])

theorem line_decomp (t : Text) (h : CrLf t) : t = [] ∨ ∃ m s t', t = m ++ (s ++ t') ∧
    '\r' ∉ m ∧ '\n' ∉ m ∧
    ((s = ['\n'] ∨ s = ['\r', '\n']) ∨ (t' = [] ∧ ((s = [] ∧ m ≠ []) ∨ s = ['\r']))) ∧
    CrLf t' := by
  induction t with
  | nil => left; rfl
  | cons c t ih =>
    right
    have ht : CrLf t := crlf_suffix [c] t h
    by_cases hn : c = '\n'
    · subst hn
      exact ⟨[], ['\n'], t, rfl, by simp, by simp, .inl (.inl rfl), ht⟩
    by_cases hr : c = '\r'
    · subst hr
      rcases h [] t rfl with h1 | h1
      · subst h1
        exact ⟨[], ['\r'], [], rfl, by simp, by simp, .inr ⟨rfl, .inr rfl⟩, ht⟩
      · cases t with
        | nil => simp at h1
        | cons d t =>
          simp only [List.head?_cons, Option.some.injEq] at h1
          subst h1
          exact ⟨[], ['\r', '\n'], t, rfl, by simp, by simp, .inl (.inr rfl),
            crlf_suffix ['\n'] t ht⟩
    rcases ih ht with h1 | ⟨m, s, t', h1, h2, h3, h4, h5⟩
    · subst h1
      exact ⟨[c], [], [], rfl, by simp [Ne.symm hr], by simp [Ne.symm hn],
        .inr ⟨rfl, .inl ⟨rfl, by simp⟩⟩, ht⟩
    · refine ⟨c :: m, s, t', by simp [h1], by simp [Ne.symm hr, h2], by simp [Ne.symm hn, h3], ?_,
        h5⟩
      rcases h4 with h4 | ⟨h4, h6 | h6⟩
      · exact .inl h4
      · exact .inr ⟨h4, .inl ⟨h6.1, by simp⟩⟩
      · exact .inr ⟨h4, .inr h6⟩

theorem newlines_cons (c : Char) (s : Text) (h : c ≠ '\r') :
    universalNewlines (c :: s) = c :: universalNewlines s := by
  rw [universalNewlines]
  · intro _ e _; exact h e
  · intro e; exact h e

theorem newlines_append (m r : Text) (h : '\r' ∉ m) :
    universalNewlines (m ++ r) = m ++ universalNewlines r := by
  induction m with
  | nil => rfl
  | cons c m ih =>
    rw [List.cons_append, newlines_cons c _ (fun e => h (by simp [e])),
      ih (fun hm => h (by simp [hm]))]
    rfl

/-- The next line of a file, with and without translation of line ends. -/
theorem readline_newlines (t : Text) (h : CrLf t) (hne : t ≠ []) :
    (Pem.readline (universalNewlines t)).2 = universalNewlines (Pem.readline t).2 ∧
    Pem.strip (Pem.readline (universalNewlines t)).1 = Pem.strip (Pem.readline t).1 ∧
    universalNewlines t ≠ [] ∧ CrLf (Pem.readline t).2 := by
  rcases line_decomp t h with h0 | ⟨m, s, t', h1, h2, h3, h4, h5⟩
  · exact absurd h0 hne
  have hr : IsLine (m ++ ['\r']) := by simp [IsLine, h3]
  have sp : ∀ l : Text, (∀ c ∈ l, Pem.isSpace c = true) → Pem.strip (m ++ l) = Pem.strip m := by
    intro l hl
    simpa using strip_pad [] m l (by simp) hl
  subst h1
  rw [newlines_append _ _ h2]
  rcases h4 with (h4 | h4) | ⟨h4, ⟨h6, h7⟩ | h6⟩
  · subst h4
    have e : universalNewlines (['\n'] ++ t') = '\n' :: universalNewlines t' :=
      newlines_cons _ _ (by decide)
    rw [e, readline_line _ _ h3, show m ++ (['\n'] ++ t') = m ++ '\n' :: t' from rfl,
      readline_line _ _ h3]
    exact ⟨rfl, rfl, by simp, h5⟩
  · subst h4
    have e : universalNewlines (['\r', '\n'] ++ t') = '\n' :: universalNewlines t' := rfl
    have e2 : m ++ (['\r', '\n'] ++ t') = (m ++ ['\r']) ++ '\n' :: t' := by simp
    rw [e, readline_line _ _ h3, e2, readline_line _ _ hr]
    refine ⟨rfl, ?_, by simp, h5⟩
    rw [List.append_assoc, sp _ (by decide), sp _ (by decide)]
  · subst h4 h6
    simp only [List.append_nil, universalNewlines]
    rw [readline_tail m h3]
    exact ⟨rfl, trivial, h7, h5⟩
  · subst h4 h6
    have e : universalNewlines (['\r'] ++ []) = ['\n'] := rfl
    rw [e, readline_line _ _ h3, List.append_nil, readline_tail _ hr]
    refine ⟨rfl, ?_, by simp, h5⟩
    rw [sp _ (by decide), sp _ (by decide)]

/-! ### The loop -/

/-- The dictionary with encoded keys. -/
def encKeys (d : List (Text × Nat)) : List (Bytes × Nat) := d.map fun p => (encodeUtf8 p.1, p.2)

theorem dictGet_encode (k : Text) (d : List (Text × Nat)) :
    dictGet (encodeUtf8 k) (encKeys d) = Pem.dictGet k d := by
  induction d with
  | nil => rfl
  | cons p d ih =>
    obtain ⟨k', v⟩ := p
    have hk : encodeUtf8 k' = encodeUtf8 k ↔ k' = k := ⟨encodeUtf8_inj _ _, fun e => by rw [e]⟩
    have ih' : dictGet (encodeUtf8 k) (List.map (fun p => (encodeUtf8 p.1, p.2)) d) =
      Pem.dictGet k d := ih
    simp only [encKeys, List.map_cons, dictGet, Pem.dictGet, ih', hk]
    cases Pem.dictGet k d <;> rfl

theorem enumerate_encode (ks : List Text) (i : Nat) :
    enumerateKeys i (ks.map encodeUtf8) = encKeys (Pem.enumerateKeys i ks) := by
  induction ks generalizing i with
  | nil => rfl
  | cons k ks ih => simp [enumerateKeys, Pem.enumerateKeys, ih, encKeys]

theorem dump_encode (cl : List Text) : dump b64decode (cl.map encodeUtf8) = Pem.dump cl := by
  induction cl with
  | nil => rfl
  | cons x cl ih => simp only [List.map_cons, dump, Pem.dump, ih, b64decode_same]

theorem dumped_encode (cl : List Text) :
    dumped b64decode (cl.map encodeUtf8) = Pem.dumped cl := by
  simp only [dumped, Pem.dumped, dump_encode]; rfl

theorem encode_nil_iff (t : Text) : encodeUtf8 t = [] ↔ t = [] :=
  ⟨fun h => encodeUtf8_inj t [] h, fun h => by rw [h]; rfl⟩

theorem loop_nil (line : Bytes → Option Bytes) (starts stops : List (Bytes × Nat)) (st : State)
    (idx : Int) (cl : List Bytes) :
    loop line starts stops st idx cl [] = { idx := idx, substrate := .emptyStr, rest := [] } := by
  rw [loop]; simp [readline]

theorem loop_step (line : Bytes → Option Bytes) (starts stops : List (Bytes × Nat)) (st : State)
    (idx : Int) (cl : List Bytes) (file : Bytes) (h : file ≠ []) :
    loop line starts stops st idx cl file =
      match st with
      | .spam =>
        match dictGet (strip (readline file).1) starts with
        | some i => loop line starts stops .ham i [] (readline file).2
        | none => loop line starts stops .spam idx cl (readline file).2
      | .ham =>
        if (dictGet (strip (readline file).1) stops).map Int.ofNat = some idx then
          { idx := idx,
            substrate := dumped line cl,
            rest := (readline file).2 }
        else loop line starts stops .ham idx (cl ++ [strip (readline file).1])
          (readline file).2 := by
  have h' : ¬ (readline file).1 = [] := fun e => h ((readline_nil_iff file).1 e)
  conv => lhs; rw [loop]
  rw [dif_neg h']
  cases st <;> rfl

theorem readline_parts (t : Text) : (Pem.readline t).1 ++ (Pem.readline t).2 = t := by
  induction t with
  | nil => rfl
  | cons c t ih =>
    by_cases hc : c = '\n'
    · simp [Pem.readline, hc]
    · simp [Pem.readline, hc, ih]

/-- The loop on the bytes of a file and on its text. -/
theorem loop_same (starts stops : List (Text × Nat)) (n : Nat) :
    ∀ (t : Text) (st : State) (idx : Int) (cl : List Text), t.length < n → CrLf t →
    (∀ c ∈ t, Pem.isSpace c = asciiBlank c) →
    ∃ t', t' <:+ t ∧
      loop b64decode (encKeys starts) (encKeys stops) st idx (cl.map encodeUtf8) (encodeUtf8 t) =
        { idx := (Pem.loop starts stops st idx cl (universalNewlines t)).idx,
          substrate := (Pem.loop starts stops st idx cl (universalNewlines t)).substrate,
          rest := encodeUtf8 t' } ∧
      (Pem.loop starts stops st idx cl (universalNewlines t)).rest = universalNewlines t' := by
  induction n with
  | zero => intro t _ _ _ h; omega
  | succ n ih =>
    intro t st idx cl hn hcr hb
    by_cases h0 : t = []
    · subst h0
      refine ⟨[], List.suffix_refl _, ?_, ?_⟩
      · simp [universalNewlines, Pem.loop_nil, loop_nil, encodeUtf8]
      · simp [universalNewlines, Pem.loop_nil]
    · obtain ⟨r1, r2, r3, r4⟩ := readline_newlines t hcr h0
      have hlen := Pem.readline_length t h0
      have hp := readline_parts t
      have hsuf : (Pem.readline t).2 <:+ t := ⟨_, hp⟩
      have hb1 : ∀ c ∈ (Pem.readline t).1, Pem.isSpace c = asciiBlank c :=
        fun c hc => hb c (by rw [← hp]; simp [hc])
      have hb2 : ∀ c ∈ (Pem.readline t).2, Pem.isSpace c = asciiBlank c :=
        fun c hc => hb c (hsuf.subset hc)
      have e1 : strip (readline (encodeUtf8 t)).1 =
          encodeUtf8 (Pem.strip (Pem.readline (universalNewlines t)).1) := by
        rw [readline_encode, strip_encode, stripBlank_eq _ hb1, r2]
      have e2 : (readline (encodeUtf8 t)).2 = encodeUtf8 (Pem.readline t).2 := by
        rw [readline_encode]
      have go := fun st idx cl => ih (Pem.readline t).2 st idx cl (by omega) r4 hb2
      rw [loop_step _ _ _ _ _ _ _ (fun e => h0 ((encode_nil_iff t).1 e)), e1, e2,
        Pem.loop_step _ _ _ _ r3, r1, dictGet_encode, dictGet_encode]
      cases st with
      | spam =>
        cases hd : Pem.dictGet (Pem.strip (Pem.readline (universalNewlines t)).1) starts with
        | some i =>
          obtain ⟨t', g1, g2, g3⟩ := go .ham i []
          exact ⟨t', g1.trans hsuf, g2, g3⟩
        | none =>
          obtain ⟨t', g1, g2, g3⟩ := go .spam idx cl
          exact ⟨t', g1.trans hsuf, g2, g3⟩
      | ham =>
        by_cases hd : (Pem.dictGet (Pem.strip (Pem.readline (universalNewlines t)).1) stops).map
            Int.ofNat = some idx
        · simp only [hd, if_true]
          exact ⟨(Pem.readline t).2, hsuf, by rw [dumped_encode], rfl⟩
        · simp only [hd, if_false]
          obtain ⟨t', g1, g2, g3⟩ :=
            go .ham idx (cl ++ [Pem.strip (Pem.readline (universalNewlines t)).1])
          refine ⟨t', g1.trans hsuf, ?_, g3⟩
          rw [← g2]; simp

end Verif.Pem.Octets
