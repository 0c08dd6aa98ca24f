import Verif.Pem.Model
import Verif.Spec.Pem

/-! Lemmas about the pem.py model: file lines, white space, marker dictionaries, loop steps. -/

namespace Verif.Pem
open Spec

/-! ### Lines -/

theorem readline_line (l rest : Text) (h : IsLine l) :
    readline (l ++ '\n' :: rest) = (l ++ ['\n'], rest) := by
  induction l with
  | nil => simp [readline]
  | cons c l ih =>
    have hc : c ≠ '\n' := by intro e; apply h; simp [e]
    have hl : IsLine l := by intro e; apply h; simp [e]
    simp [readline, hc, ih hl]

theorem readline_tail (l : Text) (h : IsLine l) : readline l = (l, []) := by
  induction l with
  | nil => simp [readline]
  | cons c l ih =>
    have hc : c ≠ '\n' := by intro e; apply h; simp [e]
    have hl : IsLine l := by intro e; apply h; simp [e]
    simp [readline, hc, ih hl]

theorem unlines_nil : unlines [] = [] := rfl
theorem unlines_cons (l : Text) (ls : List Text) : unlines (l :: ls) = l ++ '\n' :: unlines ls := by
  simp [unlines]
theorem unlines_append (a b : List Text) : unlines (a ++ b) = unlines a ++ unlines b := by
  simp [unlines]

/-- Every text is a sequence of newline-terminated lines and an unterminated last line. -/
theorem text_decomp (s : Text) :
    ∃ ls tail, s = unlines ls ++ tail ∧ (∀ l ∈ ls, IsLine l) ∧ IsLine tail := by
  induction s with
  | nil => exact ⟨[], [], rfl, by simp, by simp [IsLine]⟩
  | cons c s ih =>
    obtain ⟨ls, tail, rfl, h1, h2⟩ := ih
    by_cases hc : c = '\n'
    · refine ⟨[] :: ls, tail, ?_, ?_, h2⟩
      · simp [unlines_cons, hc]
      · intro l hl; rcases List.mem_cons.1 hl with rfl | hl
        · simp [IsLine]
        · exact h1 l hl
    · cases ls with
      | nil =>
        refine ⟨[], c :: tail, by simp [unlines], by simp, ?_⟩
        intro hm; rcases List.mem_cons.1 hm with e | e
        · exact hc e.symm
        · exact h2 e
      | cons l ls =>
        refine ⟨(c :: l) :: ls, tail, by simp [unlines_cons], ?_, h2⟩
        intro m hm; rcases List.mem_cons.1 hm with rfl | hm
        · intro e; rcases List.mem_cons.1 e with e | e
          · exact hc e.symm
          · exact h1 l (by simp) e
        · exact h1 m (by simp [hm])

/-! ### White space -/

theorem dropWhile_append_all {α} (p : α → Bool) (a b : List α) (h : ∀ x ∈ a, p x = true) :
    (a ++ b).dropWhile p = b.dropWhile p := by
  induction a with
  | nil => rfl
  | cons x a ih => simp [List.dropWhile, h x (by simp), ih (fun y hy => h y (by simp [hy]))]

theorem dropWhile_append_some {α} (p : α → Bool) (a b : List α) (h : ∃ x ∈ a, p x = false) :
    (a ++ b).dropWhile p = a.dropWhile p ++ b := by
  induction a with
  | nil => simp at h
  | cons x a ih =>
    by_cases hx : p x = true
    · have : ∃ y ∈ a, p y = false := by
        obtain ⟨y, hy, hpy⟩ := h
        rcases List.mem_cons.1 hy with rfl | hy
        · rw [hx] at hpy; exact absurd hpy (by decide)
        · exact ⟨y, hy, hpy⟩
      simp [List.dropWhile, hx, ih this]
    · simp [List.dropWhile, hx]

theorem dropWhile_all {α} (p : α → Bool) (a : List α) (h : ∀ x ∈ a, p x = true) :
    a.dropWhile p = [] := by
  have := dropWhile_append_all p a [] h; simpa using this

/-- `strip` is insensitive to white space added at either end. -/
theorem strip_pad (a m b : Text) (ha : ∀ c ∈ a, isSpace c = true) (hb : ∀ c ∈ b, isSpace c = true) :
    strip (a ++ m ++ b) = strip m := by
  unfold strip
  rw [List.append_assoc, dropWhile_append_all _ _ _ ha]
  by_cases hm : ∃ x ∈ m, isSpace x = false
  · rw [dropWhile_append_some _ _ _ hm, List.reverse_append,
      dropWhile_append_all _ _ _ (by intro c hc; exact hb c (by simpa using hc))]
  · have hall : ∀ x ∈ m, isSpace x = true := by
      intro x hx
      cases hs : isSpace x
      · exact absurd ⟨x, hx, hs⟩ hm
      · rfl
    rw [dropWhile_append_all _ _ _ hall, dropWhile_all _ _ hall, dropWhile_all _ _ hb]

theorem isSpace_newline : isSpace '\n' = true := by decide

theorem strip_newline (l : Text) : strip (l ++ ['\n']) = strip l := by
  have := strip_pad [] l ['\n'] (by simp) (by simp [isSpace_newline])
  simpa using this

/-- A text without white space at its ends is its own `strip`. -/
theorem strip_eq_self (m : Text) (h1 : ∀ c, m.head? = some c → isSpace c = false)
    (h2 : ∀ c, m.getLast? = some c → isSpace c = false) : strip m = m := by
  have d1 : m.dropWhile isSpace = m := by
    cases m with
    | nil => rfl
    | cons c m => simp [List.dropWhile, h1 c (by simp)]
  unfold strip
  rw [d1]
  have d2 : m.reverse.dropWhile isSpace = m.reverse := by
    cases hr : m.reverse with
    | nil => rfl
    | cons c r =>
      have : m.getLast? = some c := by rw [← List.head?_reverse, hr]; rfl
      simp [List.dropWhile, h2 c this]
  rw [d2, List.reverse_reverse]

/-! ### Marker dictionaries -/

/-- Position `i` is the last occurrence of `k` in `ks`. -/
def IsLastAt (ks : List Text) (k : Text) (i : Nat) : Prop :=
  ks[i]? = some k ∧ ∀ j, i < j → ks[j]? ≠ some k

theorem isLastAt_iff (ks : List Text) (k : Text) (i : Nat) :
    IsLastAt ks k i ↔ ks[i]? = some k ∧ k ∉ ks.drop (i + 1) := by
  unfold IsLastAt
  refine and_congr_right (fun _ => ?_)
  constructor
  · intro h hm
    obtain ⟨d, hd⟩ := List.mem_iff_getElem?.1 hm
    rw [List.getElem?_drop] at hd
    exact h _ (by omega) hd
  · intro h j hj hjk
    apply h
    apply List.mem_iff_getElem?.2
    exact ⟨j - (i + 1), by rw [List.getElem?_drop, show i + 1 + (j - (i + 1)) = j by omega]; exact hjk⟩

instance (ks : List Text) (k : Text) (i : Nat) : Decidable (IsLastAt ks k i) :=
  decidable_of_iff _ (isLastAt_iff ks k i).symm

theorem IsLastAt.unique {ks : List Text} {k : Text} {i j : Nat} (hi : IsLastAt ks k i)
    (hj : IsLastAt ks k j) : i = j := by
  rcases Nat.lt_trichotomy i j with h | h | h
  · exact absurd hj.1 (hi.2 j h)
  · exact h
  · exact absurd hi.1 (hj.2 i h)

theorem dictGet_enumerate (ks : List Text) (k : Text) (n i : Nat) :
    dictGet k (enumerateKeys n ks) = some i ↔ ∃ d, i = n + d ∧ IsLastAt ks k d := by
  induction ks generalizing n i with
  | nil => simp [dictGet, enumerateKeys, IsLastAt]
  | cons k' ks ih =>
    have key : ∀ d, IsLastAt (k' :: ks) k (d + 1) ↔ IsLastAt ks k d := by
      intro d
      constructor
      · rintro ⟨a, b⟩
        exact ⟨by simpa using a, fun j hj => by have := b (j + 1) (by omega); simpa using this⟩
      · rintro ⟨a, b⟩
        refine ⟨by simpa using a, fun j hj => ?_⟩
        cases j with
        | zero => omega
        | succ j => have := b j (by omega); simpa using this
    simp only [enumerateKeys, dictGet]
    cases hd : dictGet k (enumerateKeys (n + 1) ks) with
    | some w =>
      obtain ⟨d, rfl, hl⟩ := (ih (n + 1) w).1 hd
      simp only [Option.some.injEq]
      constructor
      · rintro rfl; exact ⟨d + 1, by omega, (key d).2 hl⟩
      · rintro ⟨d', rfl, hl'⟩
        have := IsLastAt.unique hl' ((key d).2 hl)
        omega
    | none =>
      have hno : ∀ d, ¬ IsLastAt ks k d := by
        intro d hl
        have := ih (n + 1) (n + 1 + d)
        rw [hd] at this
        exact absurd (this.2 ⟨d, rfl, hl⟩) (by simp)
      by_cases hk : k' = k
      · simp only [hk, if_true, Option.some.injEq]
        have h0 : IsLastAt (k' :: ks) k 0 := by
          refine ⟨by simp [hk], fun j hj hjk => ?_⟩
          -- a later occurrence would give a last occurrence in `ks`
          cases j with
          | zero => omega
          | succ j =>
            have hex : ∃ d, IsLastAt ks k d := by
              clear hd hno ih key
              have hjk' : ks[j]? = some k := by simpa using hjk
              clear hjk
              induction ks generalizing j with
              | nil => simp at hjk'
              | cons x xs ih2 =>
                by_cases hx : ∃ d : Nat, xs[d]? = some k
                · obtain ⟨d, hd⟩ := hx
                  obtain ⟨e, he⟩ := ih2 d (by omega) hd
                  refine ⟨e + 1, by simpa using he.1, fun m hm => ?_⟩
                  cases m with
                  | zero => omega
                  | succ m => have := he.2 m (by omega); simpa using this
                · refine ⟨0, ?_, fun m hm => ?_⟩
                  · cases j with
                    | zero => simpa using hjk'
                    | succ j => exact absurd ⟨j, by simpa using hjk'⟩ hx
                  · cases m with
                    | zero => omega
                    | succ m => intro e; exact hx ⟨m, by simpa using e⟩
            obtain ⟨d, hd'⟩ := hex
            exact hno d hd'
        constructor
        · rintro rfl; exact ⟨0, by omega, by simpa [hk] using h0⟩
        · rintro ⟨d, rfl, hl⟩
          have := IsLastAt.unique hl (by simpa [hk] using h0)
          omega
      · simp only [if_neg hk]
        constructor
        · intro h; exact absurd h (by simp)
        · rintro ⟨d, rfl, hl⟩
          cases d with
          | zero => exact absurd (by simpa using hl.1) hk
          | succ d => exact absurd ((key d).1 hl) (hno d)

theorem dictGet_enumerate0 (ks : List Text) (k : Text) (i : Nat) :
    dictGet k (enumerateKeys 0 ks) = some i ↔ IsLastAt ks k i := by
  rw [dictGet_enumerate]; simp

theorem dictGet_enumerate_none (ks : List Text) (k : Text) (n : Nat) :
    dictGet k (enumerateKeys n ks) = none ↔ k ∉ ks := by
  induction ks generalizing n with
  | nil => simp [dictGet, enumerateKeys]
  | cons k' ks ih =>
    simp only [enumerateKeys, dictGet]
    cases hd : dictGet k (enumerateKeys (n + 1) ks) with
    | some w =>
      have : k ∈ ks := by
        have h := mt (ih (n + 1)).2 (by rw [hd]; simp)
        simpa using h
      simp [this]
    | none =>
      have : k ∉ ks := (ih (n + 1)).1 hd
      by_cases hk : k' = k
      · simp [hk]
      · simp [hk, this, Ne.symm hk]

theorem start_some (markers : List (Text × Text)) (k : Text) (i : Nat)
    (h : IsLastAt (markers.map (·.1)) k i) : dictGet k (startMarkers markers) = some i :=
  (dictGet_enumerate0 _ _ _).2 h

theorem start_none (markers : List (Text × Text)) (k : Text) (h : k ∉ markers.map (·.1)) :
    dictGet k (startMarkers markers) = none :=
  (dictGet_enumerate_none _ _ _).2 h

/-! ### One iteration of the loop on a newline-terminated line -/

variable {starts stops : List (Text × Nat)}

theorem loop_nil (st : State) (idx : Int) (cl : List Text) :
    loop starts stops st idx cl [] = { idx := idx, substrate := .emptyStr, rest := [] } := by
  rw [loop]; simp [readline]

/-- One iteration, for any non-empty file. -/
theorem loop_step (st : State) (idx : Int) (cl : List Text) (file : Text) (h : file ≠ []) :
    loop starts stops st idx cl file =
      match st with
      | .spam =>
        match dictGet (strip (readline file).1) starts with
        | some i => loop starts stops .ham i [] (readline file).2
        | none => loop starts stops .spam idx cl (readline file).2
      | .ham =>
        if (dictGet (strip (readline file).1) stops).map Int.ofNat = some idx then
          { idx := idx,
            substrate := dumped cl,
            rest := (readline file).2 }
        else loop starts stops .ham idx (cl ++ [strip (readline file).1]) (readline file).2 := by
  have h' : ¬ (readline file).1 = [] := fun e => h ((readline_nil_iff file).1 e)
  conv => lhs; rw [loop]
  rw [dif_neg h']
  cases st <;> rfl

theorem readline_nl (l rest : Text) (hl : IsLine l) :
    strip (readline (l ++ '\n' :: rest)).1 = strip l ∧ (readline (l ++ '\n' :: rest)).2 = rest := by
  rw [readline_line l rest hl]; exact ⟨strip_newline l, rfl⟩

theorem nl_ne_nil (l rest : Text) : l ++ '\n' :: rest ≠ [] := by simp

theorem loop_spam_skip (idx : Int) (cl : List Text) (l rest : Text) (hl : IsLine l)
    (hd : dictGet (strip l) starts = none) :
    loop starts stops .spam idx cl (l ++ '\n' :: rest) = loop starts stops .spam idx cl rest := by
  rw [loop_step _ _ _ _ (nl_ne_nil l rest)]
  simp [readline_nl l rest hl, hd]

theorem loop_spam_start (idx : Int) (cl : List Text) (l rest : Text) (hl : IsLine l) (i : Nat)
    (hd : dictGet (strip l) starts = some i) :
    loop starts stops .spam idx cl (l ++ '\n' :: rest) = loop starts stops .ham i [] rest := by
  rw [loop_step _ _ _ _ (nl_ne_nil l rest)]
  simp [readline_nl l rest hl, hd]

theorem loop_ham_body (idx : Int) (cl : List Text) (l rest : Text) (hl : IsLine l)
    (hd : (dictGet (strip l) stops).map Int.ofNat ≠ some idx) :
    loop starts stops .ham idx cl (l ++ '\n' :: rest) =
      loop starts stops .ham idx (cl ++ [strip l]) rest := by
  rw [loop_step _ _ _ _ (nl_ne_nil l rest)]
  simp [readline_nl l rest hl, hd]

theorem loop_ham_stop (idx : Int) (cl : List Text) (l rest : Text) (hl : IsLine l)
    (hd : (dictGet (strip l) stops).map Int.ofNat = some idx) :
    loop starts stops .ham idx cl (l ++ '\n' :: rest) =
      { idx := idx,
        substrate := dumped cl,
        rest := rest } := by
  rw [loop_step _ _ _ _ (nl_ne_nil l rest)]
  simp [readline_nl l rest hl, hd]

theorem loop_spam_skips (idx : Int) (cl : List Text) (pre : List Text) (rest : Text)
    (hl : ∀ l ∈ pre, IsLine l) (hd : ∀ l ∈ pre, dictGet (strip l) starts = none) :
    loop starts stops .spam idx cl (unlines pre ++ rest) = loop starts stops .spam idx cl rest := by
  induction pre with
  | nil => simp [unlines]
  | cons l pre ih =>
    rw [unlines_cons, List.append_assoc, List.cons_append,
      loop_spam_skip _ _ _ _ (hl l (by simp)) (hd l (by simp))]
    exact ih (fun m hm => hl m (by simp [hm])) (fun m hm => hd m (by simp [hm]))

theorem loop_ham_bodies (idx : Int) (cl : List Text) (body : List Text) (rest : Text)
    (hl : ∀ l ∈ body, IsLine l)
    (hd : ∀ l ∈ body, (dictGet (strip l) stops).map Int.ofNat ≠ some idx) :
    loop starts stops .ham idx cl (unlines body ++ rest) =
      loop starts stops .ham idx (cl ++ body.map strip) rest := by
  induction body generalizing cl with
  | nil => simp [unlines]
  | cons l body ih =>
    rw [unlines_cons, List.append_assoc, List.cons_append,
      loop_ham_body _ _ _ _ (hl l (by simp)) (hd l (by simp)),
      ih _ (fun m hm => hl m (by simp [hm])) (fun m hm => hd m (by simp [hm]))]
    simp

/-! ### Joining the decoded lines -/

theorem dump_eq_mapM (ls : List Text) :
    dump ls = (ls.mapM (fun l => b64decode (encodeUtf8 l))).map List.flatten := by
  induction ls with
  | nil => rfl
  | cons l ls ih =>
    simp only [dump, ih, List.mapM_cons]
    cases b64decode (encodeUtf8 l) <;> simp
    cases (ls.mapM (fun l => b64decode (encodeUtf8 l))) <;> simp

end Verif.Pem
