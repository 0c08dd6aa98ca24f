import Verif.Pem.Base64

/-! # The decoder against the grammar of `Verif/Spec/Pem.lean` -/

namespace Verif.Pem
open Verif.Spec

theorem encodeUtf8_pads (n : Nat) (s : Text) : encodeUtf8 (List.replicate n '=' ++ s) = List.replicate n 61 ++ encodeUtf8 s := by
  induction n with
  | zero => rfl
  | succ n ih => rw [List.replicate_succ, List.cons_append, encodeUtf8_cons_pad, ih]; rfl

theorem encodeUtf8_digit (n : Nat) (h : n < 64) (s : Text) : encodeUtf8 (digit n :: s) = digitByte n :: encodeUtf8 s :=
  encodeUtf8_cons_digit n h s

/-- Padding before the first two digits of a group does nothing. -/
theorem a2b_skip (q left pads : Nat) (hq : q < 2) (n : Nat) (r : Bytes) : a2b q left pads (List.replicate n 61 ++ r) = a2b q left pads r := by
  induction n with
  | zero => rfl
  | succ n ih =>
    rw [List.replicate_succ, List.cons_append, a2b, if_pos (by decide), if_neg (by omega), ih]

/-- A single padding character before the third digit does nothing. -/
theorem a2b_skip1 (left : Nat) (p : Nat) (hp : p ≤ 1) (v : Nat) (hv : v < 64) (r : Bytes) :
    a2b 2 left 0 (List.replicate p 61 ++ digitByte v :: r) =
      (a2b 3 (v % 4) 0 r).map (UInt8.ofNat (left * 16 + v / 4) :: ·) := by
  have hd : ∀ pads, a2b 2 left pads (digitByte v :: r) = (a2b 3 (v % 4) 0 r).map (UInt8.ofNat (left * 16 + v / 4) :: ·) := by
    intro pads
    rw [a2b_digit _ _ _ _ hv, if_neg (by decide), if_neg (by decide), if_pos rfl]
  rcases Nat.le_one_iff_eq_zero_or_eq_one.1 hp with rfl | rfl
  · exact hd 0
  · rw [List.replicate_succ, List.cons_append, a2b, if_pos (by decide), if_pos (by decide), if_neg (by decide)]
    exact hd 1

/-- The first two digits of a group. -/
theorem a2b_start (n m v1 v2 : Nat) (h1 : v1 < 64) (h2 : v2 < 64) (r : Text) :
    b64decode (encodeUtf8 (List.replicate n '=' ++ digit v1 :: (List.replicate m '=' ++ digit v2 :: r))) =
      (a2b 2 (v2 % 16) 0 (encodeUtf8 r)).map (UInt8.ofNat ((v1 * 64 + v2) / 16) :: ·) := by
  have e : v1 * 4 + v2 / 16 = (v1 * 64 + v2) / 16 := by omega
  rw [encodeUtf8_pads, encodeUtf8_digit _ h1, encodeUtf8_pads, encodeUtf8_digit _ h2, b64decode, a2b_skip _ _ _ (by decide),
    a2b_digit _ _ _ _ h1, if_pos rfl, a2b_skip _ _ _ (by decide), a2b_digit _ _ _ _ h2, if_neg (by decide), if_pos rfl, e]

/-- The first three digits. -/
theorem a2b_third (n m p v1 v2 v3 : Nat) (hp : p ≤ 1) (h1 : v1 < 64) (h2 : v2 < 64) (h3 : v3 < 64) (r : Text) :
    b64decode (encodeUtf8 (List.replicate n '=' ++ digit v1 :: (List.replicate m '=' ++ digit v2 ::
        (List.replicate p '=' ++ digit v3 :: r)))) =
      (a2b 3 (v3 % 4) 0 (encodeUtf8 r)).map (fun bs => UInt8.ofNat ((v1 * 64 + v2) / 16) ::
        UInt8.ofNat ((v1 * 4096 + v2 * 64 + v3) / 4 % 256) :: bs) := by
  have e : v2 % 16 * 16 + v3 / 4 = (v1 * 4096 + v2 * 64 + v3) / 4 % 256 := by omega
  rw [a2b_start _ _ _ _ h1 h2, encodeUtf8_pads, encodeUtf8_digit _ h3, a2b_skip1 _ _ hp _ h3, e]
  cases a2b 3 (v3 % 4) 0 (encodeUtf8 r) <;> rfl

/-- A whole group. -/
theorem a2b_group (n m p v1 v2 v3 v4 : Nat) (hp : p ≤ 1) (h1 : v1 < 64) (h2 : v2 < 64) (h3 : v3 < 64) (h4 : v4 < 64) (r : Text) :
    b64decode (encodeUtf8 (List.replicate n '=' ++ digit v1 :: (List.replicate m '=' ++ digit v2 ::
        (List.replicate p '=' ++ digit v3 :: digit v4 :: r)))) =
      (b64decode (encodeUtf8 r)).map (fun bs => UInt8.ofNat ((v1 * 64 + v2) / 16) ::
        UInt8.ofNat ((v1 * 4096 + v2 * 64 + v3) / 4 % 256) ::
        UInt8.ofNat ((v1 * 262144 + v2 * 4096 + v3 * 64 + v4) % 256) :: bs) := by
  have e : v3 % 4 * 64 + v4 = (v1 * 262144 + v2 * 4096 + v3 * 64 + v4) % 256 := by omega
  rw [a2b_third _ _ _ _ _ _ hp h1 h2 h3, encodeUtf8_digit _ h4, a2b_digit _ _ _ _ h4, if_neg (by decide), if_neg (by decide),
    if_neg (by decide), e, b64decode]
  cases a2b 0 0 0 (encodeUtf8 r) <;> rfl

theorem lenient_decode (s : Text) (bs : Bytes) (h : Lenient s bs) : b64decode (encodeUtf8 s) = some bs := by
  induction h with
  | done n =>
    have := encodeUtf8_pads n []
    rw [List.append_nil] at this
    rw [this, b64decode, a2b_skip _ _ _ (by decide)]
    rfl
  | group n m p v1 v2 v3 v4 rest bs hp h1 h2 h3 h4 _ ih => rw [a2b_group _ _ _ _ _ _ _ hp h1 h2 h3 h4, ih]; rfl
  | one n m v1 v2 after h1 h2 =>
    rw [a2b_start _ _ _ _ h1 h2, encodeUtf8_cons_pad, encodeUtf8_cons_pad]
    simp [a2b]
  | two n m p v1 v2 v3 after hp h1 h2 h3 =>
    rw [a2b_third _ _ _ _ _ _ hp h1 h2 h3, encodeUtf8_cons_pad]
    simp [a2b]

theorem alphabet_digit (c : Char) (h : c ∈ alphabet) : ∃ v, v < 64 ∧ c = digit v := by
  obtain ⟨v, hv, rfl⟩ := List.mem_iff_getElem.1 h
  have hl : alphabet.length = 64 := by decide
  exact ⟨v, by omega, by simp [digit, List.getD_eq_getElem?_getD, List.getElem?_eq_getElem hv]⟩

/-- Padding, then nothing or a digit. -/
theorem next_digit : ∀ (s : Text), (∀ c ∈ s, c = '=' ∨ c ∈ alphabet) →
    ∃ n r, s = List.replicate n '=' ++ r ∧ (∀ c ∈ r, c = '=' ∨ c ∈ alphabet) ∧ (r = [] ∨ ∃ v r', v < 64 ∧ r = digit v :: r')
  | [], _ => ⟨0, [], rfl, by simp, Or.inl rfl⟩
  | c :: s, h => by
    rcases h c (List.mem_cons_self ..) with rfl | hc
    · obtain ⟨n, r, rfl, h1, h2⟩ := next_digit s (fun c hc => h c (List.mem_cons_of_mem _ hc))
      exact ⟨n + 1, r, rfl, h1, h2⟩
    · obtain ⟨v, hv, rfl⟩ := alphabet_digit c hc
      exact ⟨0, digit v :: s, rfl, h, Or.inr ⟨v, s, hv, rfl⟩⟩

theorem decode_lenient (s : Text) (hs : ∀ c ∈ s, c = '=' ∨ c ∈ alphabet) (bs : Bytes) (h : b64decode (encodeUtf8 s) = some bs) :
    Lenient s bs := by
  obtain ⟨n, r, rfl, hr, hn⟩ := next_digit s hs
  rcases hn with rfl | ⟨v1, r1, h1, rfl⟩
  · have := lenient_decode _ _ (Lenient.done n)
    rw [List.append_nil] at h ⊢
    rw [this, Option.some.injEq] at h
    exact h ▸ Lenient.done n
  · obtain ⟨m, r, rfl, hr, hn⟩ := next_digit r1 (fun c hc => hr c (List.mem_cons_of_mem _ hc))
    rcases hn with rfl | ⟨v2, r2, h2, rfl⟩
    · rw [List.append_nil, encodeUtf8_pads, encodeUtf8_digit _ h1, b64decode, a2b_skip _ _ _ (by decide), a2b_digit _ _ _ _ h1, if_pos rfl] at h
      have e := encodeUtf8_pads m []
      rw [List.append_nil] at e
      rw [e, a2b_skip _ _ _ (by decide)] at h
      simp [encodeUtf8, a2b] at h
    · obtain ⟨p, r, rfl, hr, hn⟩ := next_digit r2 (fun c hc => hr c (List.mem_cons_of_mem _ hc))
      by_cases hp : p ≤ 1
      · rcases hn with rfl | ⟨v3, r3, h3, rfl⟩
        · rw [a2b_start _ _ _ _ h1 h2, encodeUtf8_pads] at h
          rcases Nat.le_one_iff_eq_zero_or_eq_one.1 hp with rfl | rfl <;> simp [encodeUtf8, a2b] at h
        · cases r3 with
          | nil =>
            rw [a2b_third _ _ _ _ _ _ hp h1 h2 h3] at h
            simp [encodeUtf8, a2b] at h
          | cons c r3 =>
            rcases hr c (by simp) with rfl | hc
            · have hl := Lenient.two n m p v1 v2 v3 r3 hp h1 h2 h3
              rw [lenient_decode _ _ hl, Option.some.injEq] at h
              exact h ▸ hl
            · obtain ⟨v4, h4, rfl⟩ := alphabet_digit c hc
              rw [a2b_group _ _ _ _ _ _ _ hp h1 h2 h3 h4] at h
              cases hb : b64decode (encodeUtf8 r3) with
              | none => rw [hb] at h; simp at h
              | some bs' =>
                rw [hb] at h
                simp only [Option.map_some, Option.some.injEq] at h
                subst h
                exact Lenient.group n m p v1 v2 v3 v4 r3 bs' hp h1 h2 h3 h4
                  (decode_lenient r3 (fun c hc => hr c (by simp [hc])) bs' hb)
      · obtain ⟨k, rfl⟩ : ∃ k, p = k + 2 := ⟨p - 2, by omega⟩
        have hl := Lenient.one n m v1 v2 (List.replicate k '=' ++ r) h1 h2
        have e : List.replicate (k + 2) '=' ++ r = '=' :: '=' :: (List.replicate k '=' ++ r) := by simp [List.replicate_succ]
        rw [e] at h ⊢
        rw [lenient_decode _ _ hl, Option.some.injEq] at h
        exact h ▸ hl
termination_by s.length
decreasing_by subst_vars; simp; omega

end Verif.Pem
