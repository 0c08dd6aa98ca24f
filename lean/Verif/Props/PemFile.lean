import Verif.Spec.PemFile
import Verif.Props.Pem

/-!
# C53: what the block reader does is fixed by the lines of the file, for every file

`reading_exists` and `reads` together: every text has a reading, and that is what the reader returns.
-/

namespace Verif.Props.Pem
open Verif.Pem Verif.Spec

theorem white_iff (c : Char) : White c ↔ isSpace c = true := by
  simp only [White, isSpace, List.mem_cons, List.not_mem_nil, or_false, Bool.or_eq_true, Bool.and_eq_true, decide_eq_true_eq, beq_iff_eq]
  generalize c.toNat = n
  constructor
  · intro h
    rcases h with h | h | h | h | h | h | h | h | h | h | h | h | h | h | h | h | h | h | h | h | h | h | h | h | h | h | h | h | h <;>
      subst h <;> decide
  · omega

theorem dropWhile_split {α : Type} (p : α → Bool) : ∀ l : List α, ∃ a, l = a ++ l.dropWhile p ∧ ∀ c ∈ a, p c = true
  | [] => ⟨[], rfl, nofun⟩
  | x :: l => by
    by_cases hx : p x = true
    · obtain ⟨a, h1, h2⟩ := dropWhile_split p l
      refine ⟨x :: a, ?_, ?_⟩
      · rw [List.dropWhile_cons_of_pos hx, List.cons_append, ← h1]
      · intro c hc
        rcases List.mem_cons.1 hc with rfl | hc
        · exact hx
        · exact h2 c hc
    · exact ⟨[], by rw [List.dropWhile_cons_of_neg hx]; rfl, nofun⟩

theorem dropWhile_head {α : Type} (p : α → Bool) : ∀ (l : List α) (c : α), (l.dropWhile p).head? = some c → p c ≠ true
  | [], _, h => by simp at h
  | x :: l, c, h => by
    by_cases hx : p x = true
    · rw [List.dropWhile_cons_of_pos hx] at h
      exact dropWhile_head p l c h
    · rw [List.dropWhile_cons_of_neg hx] at h
      rw [← Option.some.inj h]
      exact hx

/-- `strip` does what it should, and nothing else does. -/
theorem trimmed_iff (l m : Text) : Trimmed l m ↔ strip l = m := by
  constructor
  · rintro ⟨a, b, rfl, ha, hb, h1, h2⟩
    rw [strip_pad a m b (fun c hc => (white_iff c).1 (ha c hc)) (fun c hc => (white_iff c).1 (hb c hc))]
    exact strip_eq_self m (fun c hc => by simpa [white_iff] using h1 c hc) (fun c hc => by simpa [white_iff] using h2 c hc)
  · rintro rfl
    obtain ⟨a, ha, ha2⟩ := dropWhile_split isSpace l
    obtain ⟨b, hb, hb2⟩ := dropWhile_split isSpace (l.dropWhile isSpace).reverse
    have e : l.dropWhile isSpace = strip l ++ b.reverse := by
      rw [strip, ← List.reverse_append, ← hb, List.reverse_reverse]
    refine ⟨a, b.reverse, ?_, fun c hc => (white_iff c).2 (ha2 c hc), fun c hc => (white_iff c).2 (hb2 c (List.mem_reverse.1 hc)), ?_, ?_⟩
    · rw [List.append_assoc, ← e]
      exact ha
    · intro c hc
      rw [white_iff]
      refine dropWhile_head isSpace l c ?_
      rw [e]
      cases hs : strip l with
      | nil => rw [hs] at hc; simp at hc
      | cons x xs => rw [hs] at hc; simpa using hc
    · intro c hc
      rw [white_iff]
      refine dropWhile_head isSpace (l.dropWhile isSpace).reverse c ?_
      rw [strip, List.getLast?_reverse] at hc
      exact hc

theorem marks_iff (ks : List Text) (l : Text) (i : Nat) : Marks ks l i ↔ IsLastAt ks (strip l) i := by
  constructor
  · rintro ⟨m, h1, h2⟩
    rw [(trimmed_iff l m).1 h1]
    exact h2
  · exact fun h => ⟨_, (trimmed_iff _ _).2 rfl, h⟩

/-! ### Lines -/

theorem readline_append : ∀ s : Text, (readline s).1 ++ (readline s).2 = s
  | [] => rfl
  | c :: s => by
    rw [readline]
    split
    · rename_i h; rw [h]; rfl
    · rw [List.cons_append, readline_append s]

theorem linesOf_readline : ∀ (s : Text), s ≠ [] → ∃ l, linesOf s = l :: linesOf (readline s).2 ∧
    ((readline s).1 = l ∨ (readline s).1 = l ++ ['\n'])
  | [], h => absurd rfl h
  | c :: s, _ => by
    by_cases hc : c = '\n'
    · refine ⟨[], ?_, .inr ?_⟩ <;> simp [linesOf, readline, hc]
    · by_cases hs : s = []
      · subst hs
        refine ⟨[c], ?_, .inl ?_⟩ <;> simp [linesOf, readline, hc]
      · obtain ⟨l, h1, h2⟩ := linesOf_readline s hs
        refine ⟨c :: l, ?_, ?_⟩
        · simp only [linesOf, readline, hc, if_false, h1]
        · simp only [readline, hc, if_false]
          rcases h2 with h2 | h2
          · exact .inl (by rw [h2])
          · exact .inr (by rw [h2]; rfl)

theorem linesOf_step (s : Text) (l : Text) (ls : List Text) (h : linesOf s = l :: ls) :
    s ≠ [] ∧ linesOf (readline s).2 = ls ∧ strip (readline s).1 = strip l := by
  have hs : s ≠ [] := by rintro rfl; simp [linesOf] at h
  obtain ⟨m, h1, h2⟩ := linesOf_readline s hs
  rw [h] at h1
  injection h1 with e1 e2
  subst e1
  refine ⟨hs, e2.symm, ?_⟩
  rcases h2 with h2 | h2 <;> rw [h2]
  exact strip_newline l

theorem linesOf_nil (s : Text) (h : linesOf s = []) : s = [] := by
  by_cases hs : s = []
  · exact hs
  · obtain ⟨l, h1, _⟩ := linesOf_readline s hs
    rw [h] at h1
    exact nomatch h1

/-! ### The loop by lines -/

variable {markers : List (Text × Text)}

theorem loop_pre (idx : Int) (cl : List Text) : ∀ (pre rest : List Text) (file : Text), linesOf file = pre ++ rest →
    (∀ l ∈ pre, ∀ j, ¬ Marks (markers.map (·.1)) l j) →
    ∃ t file', file = t ++ file' ∧ linesOf file' = rest ∧
      loop (startMarkers markers) (stopMarkers markers) .spam idx cl file = loop (startMarkers markers) (stopMarkers markers) .spam idx cl file'
  | [], rest, file, h, _ => ⟨[], file, rfl, h, rfl⟩
  | l :: pre, rest, file, h, hp => by
    obtain ⟨h1, h2, h3⟩ := linesOf_step file l _ h
    obtain ⟨t, f, e1, e2, e3⟩ := loop_pre idx cl pre rest _ h2 (fun m hm => hp m (List.mem_cons_of_mem _ hm))
    refine ⟨(readline file).1 ++ t, f, ?_, e2, ?_⟩
    · rw [List.append_assoc, ← e1, readline_append]
    · rw [← e3, loop_step _ _ _ _ h1]
      have hd : dictGet (strip l) (startMarkers markers) = none := by
        cases hg : dictGet (strip l) (startMarkers markers) with
        | none => rfl
        | some i =>
          refine absurd ((marks_iff _ _ i).2 ?_) (hp l (List.mem_cons_self ..) i)
          rw [← dictGet_enumerate0]
          exact hg
      simp [h3, hd]

theorem loop_body (i : Nat) : ∀ (body rest : List Text) (cl : List Text) (file : Text), linesOf file = body ++ rest →
    (∀ l ∈ body, ¬ Marks (markers.map (·.2)) l i) →
    ∃ t file', file = t ++ file' ∧ linesOf file' = rest ∧
      loop (startMarkers markers) (stopMarkers markers) .ham i cl file =
        loop (startMarkers markers) (stopMarkers markers) .ham i (cl ++ body.map strip) file'
  | [], rest, cl, file, h, _ => ⟨[], file, rfl, h, by simp⟩
  | l :: body, rest, cl, file, h, hp => by
    obtain ⟨h1, h2, h3⟩ := linesOf_step file l _ h
    obtain ⟨t, f, e1, e2, e3⟩ := loop_body i body rest (cl ++ [strip l]) _ h2 (fun m hm => hp m (List.mem_cons_of_mem _ hm))
    refine ⟨(readline file).1 ++ t, f, ?_, e2, ?_⟩
    · rw [List.append_assoc, ← e1, readline_append]
    · rw [List.map_cons, ← List.singleton_append, ← List.append_assoc, ← e3, loop_step _ _ _ _ h1]
      have hd : ¬ (dictGet (strip l) (stopMarkers markers)).map Int.ofNat = some (i : Int) := fun hg =>
        hp l (List.mem_cons_self ..) ((marks_iff _ _ i).2 ((stop_iff markers l i).1 hg))
      simp [h3, hd]

theorem loop_start (idx : Int) (cl : List Text) (i : Nat) (s : Text) (rest : List Text) (file : Text) (h : linesOf file = s :: rest)
    (hs : Marks (markers.map (·.1)) s i) :
    ∃ t file', file = t ++ file' ∧ linesOf file' = rest ∧
      loop (startMarkers markers) (stopMarkers markers) .spam idx cl file = loop (startMarkers markers) (stopMarkers markers) .ham i [] file' := by
  obtain ⟨h1, h2, h3⟩ := linesOf_step file s _ h
  refine ⟨_, _, (readline_append file).symm, h2, ?_⟩
  rw [loop_step _ _ _ _ h1]
  simp [h3, start_some _ _ _ ((marks_iff _ _ _).1 hs)]

/-! ### Bodies -/

theorem filter_strip (l : Text) : (strip l).filter (fun c => alphabet.contains c || c == '=') =
    l.filter (fun c => alphabet.contains c || c == '=') := by
  obtain ⟨a, b, h, ha, hb, _⟩ := (trimmed_iff l (strip l)).2 rfl
  have none : ∀ t : Text, (∀ c ∈ t, White c) → t.filter (fun c => alphabet.contains c || c == '=') = [] := by
    intro t ht
    refine List.filter_eq_nil_iff.2 fun c hc hd => ?_
    have h1 := (white_iff c).1 (ht c hc)
    have h2 : ∀ d ∈ '=' :: alphabet, isSpace d = false := by decide
    have h3 : c ∈ '=' :: alphabet := by
      simp only [Bool.or_eq_true, List.contains_iff_mem, beq_iff_eq] at hd
      rcases hd with hd | hd
      · exact List.mem_cons_of_mem _ hd
      · rw [hd]; exact List.mem_cons_self ..
    rw [h2 c h3] at h1
    exact nomatch h1
  rw [h]
  conv => rhs; rw [List.filter_append, List.filter_append, none a ha, none b hb]
  simp only [List.nil_append, List.append_nil]
  rw [← h]

theorem bodyResult_bytes : ∀ (body : List Text) (bs : Bytes), bodyResult body = .bytes bs ↔ Body body bs := by
  have dec : ∀ (l : Text) (b : Bytes), b64decode (encodeUtf8 (strip l)) = some b ↔
      Lenient (l.filter (fun c => alphabet.contains c || c == '=')) b := by
    intro l b
    rw [← filter_strip]
    exact readBase64_iff (strip l) b
  intro body
  induction body with
  | nil =>
    intro bs
    simp only [bodyResult, List.mapM_nil]
    constructor
    · intro h
      have : bs = [] := by simpa using h.symm
      rw [this]
      exact .nil
    · intro h
      cases h
      rfl
  | cons l ls ih =>
    intro bs
    have ih2 : ∀ b, (∃ xs, ls.mapM (fun l => b64decode (encodeUtf8 (strip l))) = some xs ∧ xs.flatten = b) ↔ Body ls b := by
      intro b
      rw [← ih]
      unfold bodyResult
      cases ls.mapM (fun l => b64decode (encodeUtf8 (strip l))) <;> simp
    have e : bodyResult (l :: ls) = .bytes bs ↔ ∃ a xs, b64decode (encodeUtf8 (strip l)) = some a ∧
        ls.mapM (fun l => b64decode (encodeUtf8 (strip l))) = some xs ∧ a ++ xs.flatten = bs := by
      unfold bodyResult
      rw [List.mapM_cons]
      cases b64decode (encodeUtf8 (strip l)) with
      | none => simp
      | some a => cases ls.mapM (fun l => b64decode (encodeUtf8 (strip l))) <;> simp
    rw [e]
    constructor
    · rintro ⟨a, xs, h1, h2, rfl⟩
      exact .cons ((dec l a).1 h1) ((ih2 _).1 ⟨xs, h2, rfl⟩)
    · intro h
      cases h with
      | cons h1 h2 =>
        obtain ⟨xs, h3, rfl⟩ := (ih2 _).2 h2
        exact ⟨_, xs, (dec l _).2 h1, h3, rfl⟩

theorem bodyResult_raised (body : List Text) : bodyResult body = .raised ↔ ¬ ∃ bs, Body body bs := by
  constructor
  · rintro h ⟨bs, hb⟩
    rw [(bodyResult_bytes body bs).2 hb] at h
    exact nomatch h
  · intro h
    cases hb : bodyResult body with
    | bytes bs => exact absurd ⟨bs, (bodyResult_bytes body bs).1 hb⟩ h
    | raised => rfl
    | emptyStr =>
      unfold bodyResult at hb
      split at hb <;> exact nomatch hb

/-! ### C53 -/

/-- The index returned for a block. -/
def number : Option Nat → Int
  | none => -1
  | some i => i

/-- The second result: empty without a body, otherwise the octets of the body, or an exception if it is not base64. -/
def Returned (s : Substrate) : Option (List Line) → Prop
  | none => s = .emptyStr
  | some body => (∀ bs, s = .bytes bs ↔ Body body bs) ∧ (s = .raised ↔ ¬ ∃ bs, Body body bs)

/-- C53: what the reader returns, and what it leaves to be read, for a file with any reading. -/
theorem reads (file : Text) (markers : List (Text × Text)) (i : Option Nat) (b : Option (List Line)) (post : List Line)
    (h : Reading (markers.map (·.1)) (markers.map (·.2)) (linesOf file) i b post) :
    (readPemBlocksFromFile file markers).idx = number i ∧ Returned (readPemBlocksFromFile file markers).substrate b ∧
    linesOf (readPemBlocksFromFile file markers).rest = post ∧ ∃ t, file = t ++ (readPemBlocksFromFile file markers).rest := by
  unfold readPemBlocksFromFile
  generalize hls : linesOf file = ls at h
  cases h with
  | nothing _ hn =>
    obtain ⟨t, f, e1, e2, e3⟩ := loop_pre (-1) [] ls [] file (by rw [hls, List.append_nil]) hn
    rw [e3, linesOf_nil f e2, loop_nil]
    exact ⟨rfl, rfl, rfl, file, by simp⟩
  | unended pre s body i hn hs hb =>
    obtain ⟨t1, f1, e1, e2, e3⟩ := loop_pre (-1) [] pre _ file hls hn
    obtain ⟨t2, f2, g1, g2, g3⟩ := loop_start (-1) [] i s _ f1 e2 hs
    obtain ⟨t3, f3, k1, k2, k3⟩ := loop_body i body [] [] f2 (by rw [g2, List.append_nil]) hb
    rw [e3, g3, k3, linesOf_nil f3 k2, loop_nil]
    exact ⟨rfl, rfl, rfl, file, by simp⟩
  | block pre s body e post i hn hs hb he =>
    obtain ⟨t1, f1, e1, e2, e3⟩ := loop_pre (-1) [] pre _ file hls hn
    obtain ⟨t2, f2, g1, g2, g3⟩ := loop_start (-1) [] i s _ f1 e2 hs
    obtain ⟨t3, f3, k1, k2, k3⟩ := loop_body i body _ [] f2 g2 hb
    obtain ⟨h1, h2, h3⟩ := linesOf_step f3 e _ k2
    have hstop : (dictGet (strip e) (stopMarkers markers)).map Int.ofNat = some (i : Int) :=
      (stop_iff markers e i).2 ((marks_iff _ _ _).1 he)
    have hl : loop (startMarkers markers) (stopMarkers markers) .ham i ([] ++ body.map strip) f3 =
        { idx := i, substrate := bodyResult body, rest := (readline f3).2 } := by
      rw [loop_step _ _ _ _ h1]
      simp [h3, hstop, dump_bodyResult]
    rw [e3, g3, k3, hl]
    refine ⟨rfl, ⟨bodyResult_bytes body, bodyResult_raised body⟩, h2, t1 ++ t2 ++ t3 ++ (readline f3).1, ?_⟩
    rw [e1, g1, k1]
    simp only [List.append_assoc]
    rw [readline_append]

/-- C53: every file has a reading. -/
theorem reading_exists (starts stops : List Line) (ls : List Line) : ∃ i b post, Reading starts stops ls i b post := by
  have first : ∀ (P : Line → Prop) (ls : List Line), (∀ l ∈ ls, ¬ P l) ∨ ∃ pre s rest, ls = pre ++ s :: rest ∧ (∀ l ∈ pre, ¬ P l) ∧ P s := by
    intro P ls
    induction ls with
    | nil => exact .inl nofun
    | cons l ls ih =>
      by_cases hl : P l
      · exact .inr ⟨[], l, ls, rfl, nofun, hl⟩
      · rcases ih with h | ⟨pre, s, rest, rfl, h1, h2⟩
        · left
          intro m hm
          rcases List.mem_cons.1 hm with rfl | hm
          · exact hl
          · exact h m hm
        · refine .inr ⟨l :: pre, s, rest, rfl, ?_, h2⟩
          intro m hm
          rcases List.mem_cons.1 hm with rfl | hm
          · exact hl
          · exact h1 m hm
  rcases first (fun l => ∃ i, Marks starts l i) ls with h | ⟨pre, s, rest, rfl, h1, i, h2⟩
  · exact ⟨none, none, [], .nothing ls (fun l hl i hi => h l hl ⟨i, hi⟩)⟩
  · have h1 : ∀ l ∈ pre, ∀ j, ¬ Marks starts l j := fun l hl j hj => h1 l hl ⟨j, hj⟩
    rcases first (fun l => Marks stops l i) rest with h | ⟨body, e, post, rfl, h3, h4⟩
    · exact ⟨some i, none, [], .unended pre s rest i h1 h2 h⟩
    · exact ⟨some i, some body, post, .block pre s body e post i h1 h2 h3 h4⟩

/-- C53: so a file has one reading only, and it is the one returned. -/
theorem reading_unique (markers : List (Text × Text)) (file : Text) (i i' : Option Nat) (b b' : Option (List Line)) (post post' : List Line)
    (h : Reading (markers.map (·.1)) (markers.map (·.2)) (linesOf file) i b post)
    (h' : Reading (markers.map (·.1)) (markers.map (·.2)) (linesOf file) i' b' post') : i = i' ∧ post = post' ∧ b.isSome = b'.isSome := by
  obtain ⟨a1, a4, a2, _⟩ := reads file markers i b post h
  obtain ⟨b1, b4, b2, _⟩ := reads file markers i' b' post' h'
  refine ⟨?_, a2.symm.trans b2, ?_⟩
  · rw [a1] at b1
    cases i <;> cases i' <;> simp only [number] at b1
    · rfl
    · omega
    · omega
    · rw [Int.ofNat.inj b1]
  · have sub : ∀ body, Returned (readPemBlocksFromFile file markers).substrate (some body) →
        (readPemBlocksFromFile file markers).substrate ≠ .emptyStr := by
      rintro body ⟨h1, h2⟩ he
      have : ¬ ∃ bs, Body body bs := by
        rintro ⟨bs, hb⟩
        rw [(h1 bs).2 hb] at he
        exact nomatch he
      rw [h2.2 this] at he
      exact nomatch he
    cases b <;> cases b'
    · rfl
    · exact absurd a4 (sub _ b4)
    · exact absurd b4 (sub _ a4)
    · rfl

/-- A file with carriage returns, a marker set in by blanks and a last line without newline has the reading one expects. -/
example : Reading ["<a>".toList, "<b>".toList] ["</a>".toList, "</b>".toList]
    (linesOf "junk\r\n </a>\n\t<b> \r\nAAEC\r\n<a>\r\n</b>".toList) (some 1) (some ["AAEC\r".toList, "<a>\r".toList]) [] := by
  have e : linesOf "junk\r\n </a>\n\t<b> \r\nAAEC\r\n<a>\r\n</b>".toList =
      ["junk\r".toList, " </a>".toList] ++ "\t<b> \r".toList :: (["AAEC\r".toList, "<a>\r".toList] ++ "</b>".toList :: []) := by decide
  rw [e]
  refine .block _ _ _ _ _ 1 ?_ ?_ ?_ ?_ <;> simp only [marks_iff]
  · intro l hl j hj
    have h2 : ∀ l ∈ ["junk\r".toList, " </a>".toList], strip l ∉ ["<a>".toList, "<b>".toList] := by decide
    exact h2 l hl (List.mem_of_getElem? hj.1)
  · exact (isLastAt_iff _ _ _).2 (by decide)
  · intro l hl
    rw [isLastAt_iff]
    revert l
    decide
  · exact (isLastAt_iff _ _ _).2 (by decide)

end Verif.Props.Pem
