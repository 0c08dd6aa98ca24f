import Verif.Pem.Lenient

/-!
# Properties of pem.py (C01 - C08)

A file is described as `unlines ls ++ post`: lines `ls` ended by newlines and arbitrary further
text.  Every text has such a description (`text_decomp`).  `strip l` is Python's `l.strip()`.
-/

namespace Verif.Props.Pem
open Verif.Pem Verif.Spec

/-- What the block reader must return for body lines `body`: their separate base64 decodings,
concatenated; an exception if some line does not decode. -/
def bodyResult (body : List Text) : Substrate :=
  match body.mapM (fun l => b64decode (encodeUtf8 (strip l))) with
  | some bs => .bytes bs.flatten
  | none => .raised

/-- Stripped line `l` is one of the texts `ks`. -/
def IsMarker (ks : List Text) (l : Text) : Prop := strip l ∈ ks

instance (ks : List Text) (l : Text) : Decidable (IsMarker ks l) :=
  inferInstanceAs (Decidable (strip l ∈ ks))

theorem dump_bodyResult (body : List Text) :
    dumped (body.map strip) = bodyResult body := by
  unfold dumped
  rw [dump_eq_mapM]
  unfold bodyResult
  have : (body.map strip).mapM (fun l => b64decode (encodeUtf8 l)) =
      body.mapM (fun l => b64decode (encodeUtf8 (strip l))) := by
    rw [List.mapM_map]; rfl
  rw [this]
  cases body.mapM (fun l => b64decode (encodeUtf8 (strip l))) <;> rfl

/-- The condition under which the loop ends a block, in terms of marker positions. -/
theorem stop_iff (markers : List (Text × Text)) (l : Text) (i : Nat) :
    (dictGet (strip l) (stopMarkers markers)).map Int.ofNat = some (i : Int) ↔
      IsLastAt (markers.map (·.2)) (strip l) i := by
  unfold stopMarkers
  rw [← dictGet_enumerate0]
  cases dictGet (strip l) (enumerateKeys 0 (markers.map (·.2))) with
  | none => simp
  | some j =>
    simp only [Option.map_some, Option.some.injEq]
    constructor
    · intro h; exact Int.ofNat.inj h
    · intro h; rw [h]; rfl

/-- **C01** (general form, also C06 and C07).  Whatever the text before (no line of which is a start
marker) and after the block, the block of pair `i` is returned, and the file position is right
after the stop line.  Pair `i` is the *last* pair with that start text and the last with that stop
text; body lines are any lines that do not end block `i`, in particular other markers. -/
theorem first_block (markers : List (Text × Text)) (pre body : List Text) (s e post : Text)
    (i : Nat)
    (hlines : ∀ l ∈ pre ++ s :: body ++ [e], IsLine l)
    (hpre : ∀ l ∈ pre, ¬ IsMarker (markers.map (·.1)) l)
    (hs : IsLastAt (markers.map (·.1)) (strip s) i)
    (hbody : ∀ l ∈ body, ¬ IsLastAt (markers.map (·.2)) (strip l) i)
    (he : IsLastAt (markers.map (·.2)) (strip e) i) :
    readPemBlocksFromFile (unlines (pre ++ s :: body ++ [e]) ++ post) markers =
      { idx := i, substrate := bodyResult body, rest := post } := by
  have l1 : ∀ l ∈ pre, IsLine l := fun l hl => hlines l (by simp [hl])
  have l2 : IsLine s := hlines s (by simp)
  have l3 : ∀ l ∈ body, IsLine l := fun l hl => hlines l (by simp [hl])
  have l4 : IsLine e := hlines e (by simp)
  unfold readPemBlocksFromFile
  have e1 : unlines (pre ++ s :: body ++ [e]) ++ post =
      unlines pre ++ (s ++ '\n' :: (unlines body ++ (e ++ '\n' :: post))) := by
    simp [unlines_append, unlines_cons, unlines_nil]
  rw [e1, loop_spam_skips _ _ _ _ l1
    (fun l hl => start_none _ _ (hpre l hl)),
    loop_spam_start _ _ _ _ l2 i (start_some _ _ _ hs),
    loop_ham_bodies _ _ _ _ l3 (fun l hl h => hbody l hl ((stop_iff markers l i).1 h)),
    loop_ham_stop _ _ _ _ l4 ((stop_iff markers e i).2 he), List.nil_append, dump_bodyResult]

/-- The same when the stop marker is the last line and is not ended by a newline. -/
theorem first_block_eof (markers : List (Text × Text)) (pre body : List Text) (s e : Text)
    (i : Nat)
    (hlines : ∀ l ∈ pre ++ s :: body ++ [e], IsLine l) (hne : e ≠ [])
    (hpre : ∀ l ∈ pre, ¬ IsMarker (markers.map (·.1)) l)
    (hs : IsLastAt (markers.map (·.1)) (strip s) i)
    (hbody : ∀ l ∈ body, ¬ IsLastAt (markers.map (·.2)) (strip l) i)
    (he : IsLastAt (markers.map (·.2)) (strip e) i) :
    readPemBlocksFromFile (unlines (pre ++ s :: body) ++ e) markers =
      { idx := i, substrate := bodyResult body, rest := [] } := by
  have l1 : ∀ l ∈ pre, IsLine l := fun l hl => hlines l (by simp [hl])
  have l2 : IsLine s := hlines s (by simp)
  have l3 : ∀ l ∈ body, IsLine l := fun l hl => hlines l (by simp [hl])
  have l4 : IsLine e := hlines e (by simp)
  unfold readPemBlocksFromFile
  have e1 : unlines (pre ++ s :: body) ++ e =
      unlines pre ++ (s ++ '\n' :: (unlines body ++ e)) := by
    simp [unlines_append, unlines_cons]
  rw [e1, loop_spam_skips _ _ _ _ l1
    (fun l hl => start_none _ _ (hpre l hl)),
    loop_spam_start _ _ _ _ l2 i (start_some _ _ _ hs),
    loop_ham_bodies _ _ _ _ l3 (fun l hl h => hbody l hl ((stop_iff markers l i).1 h)),
    List.nil_append, loop_step _ _ _ _ hne, readline_tail e l4]
  simp [(stop_iff markers e i).2 he, dump_bodyResult]

/-- In a list without repetitions every position is the last one. -/
theorem isLastAt_of_nodup (ks : List Text) (h : ks.Nodup) (k : Text) (i : Nat) :
    IsLastAt ks k i ↔ ks[i]? = some k := by
  constructor
  · exact fun h => h.1
  · intro hi
    refine ⟨hi, fun j hj hjk => ?_⟩
    have hlt : j < ks.length := by
      rcases Nat.lt_or_ge j ks.length with h | h
      · exact h
      · rw [List.getElem?_eq_none h] at hjk; simp at hjk
    have := (List.getElem?_inj (l := ks) (i := i) (j := j) (by omega) h).1 (by rw [hi, hjk])
    omega

/-- **C01.** With distinct start markers and distinct stop markers. -/
theorem first_block_distinct (markers : List (Text × Text)) (pre body : List Text)
    (s e post : Text) (i : Nat)
    (h1 : (markers.map (·.1)).Nodup) (h2 : (markers.map (·.2)).Nodup)
    (hlines : ∀ l ∈ pre ++ s :: body ++ [e], IsLine l)
    (hpre : ∀ l ∈ pre, ∀ m ∈ markers, strip l ≠ m.1)
    (hpair : markers[i]? = some (strip s, strip e))
    (hbody : ∀ l ∈ body, strip l ≠ strip e) :
    readPemBlocksFromFile (unlines (pre ++ s :: body ++ [e]) ++ post) markers =
      { idx := i, substrate := bodyResult body, rest := post } := by
  have hsi : (markers.map (·.1))[i]? = some (strip s) := by simp [hpair]
  have hei : (markers.map (·.2))[i]? = some (strip e) := by simp [hpair]
  apply first_block markers pre body s e post i hlines
  · intro l hl hm
    obtain ⟨m, hm1, hm2⟩ := List.mem_map.1 hm
    exact hpre l hl m hm1 hm2.symm
  · exact (isLastAt_of_nodup _ h1 _ _).2 hsi
  · intro l hl hm
    have := hm.1
    rw [hei] at this
    exact hbody l hl (Option.some.inj this).symm
  · exact (isLastAt_of_nodup _ h2 _ _).2 hei

-- The hypotheses of `first_block_distinct` are met by a file with two marker pairs, junk, a body
-- line that is a foreign marker, and trailing text.
example := first_block_distinct
    [("<a>".toList, "</a>".toList), ("<b>".toList, "</b>".toList)]
    ["junk".toList, "</b>".toList] ["AAEC\r".toList, "</a>".toList] "  <b>".toList "</b>".toList
    "rest".toList 1 (by decide) (by decide) (by decide) (by decide) (by decide) (by decide)

/-- **C02** (no block).  If no line is a start marker the reader reports `-1` and `''` and has read
the whole file.  `tail` is an unterminated last line, if any. -/
theorem no_block (markers : List (Text × Text)) (ls : List Text) (tail : Text)
    (hlines : ∀ l ∈ ls, IsLine l) (htail : IsLine tail)
    (h : ∀ l ∈ ls, ¬ IsMarker (markers.map (·.1)) l)
    (ht : tail ≠ [] → ¬ IsMarker (markers.map (·.1)) tail) :
    readPemBlocksFromFile (unlines ls ++ tail) markers =
      { idx := -1, substrate := .emptyStr, rest := [] } := by
  unfold readPemBlocksFromFile
  rw [loop_spam_skips _ _ _ _ hlines
    (fun l hl => start_none _ _ (h l hl))]
  by_cases hn : tail = []
  · subst hn; exact loop_nil ..
  · have hd : dictGet (strip tail) (startMarkers markers) = none :=
      start_none _ _ (ht hn)
    rw [loop_step _ _ _ _ hn, readline_tail tail htail]
    simp [hd, loop_nil]

/-- **C02** (unterminated block).  If a block is started and never ended, the reader reports its
index, an empty result, and has read the whole file. -/
theorem unterminated (markers : List (Text × Text)) (pre body : List Text) (s tail : Text) (i : Nat)
    (hlines : ∀ l ∈ pre ++ s :: body, IsLine l) (htail : IsLine tail)
    (hpre : ∀ l ∈ pre, ¬ IsMarker (markers.map (·.1)) l)
    (hs : IsLastAt (markers.map (·.1)) (strip s) i)
    (hbody : ∀ l ∈ body, ¬ IsLastAt (markers.map (·.2)) (strip l) i)
    (ht : tail ≠ [] → ¬ IsLastAt (markers.map (·.2)) (strip tail) i) :
    readPemBlocksFromFile (unlines (pre ++ s :: body) ++ tail) markers =
      { idx := i, substrate := .emptyStr, rest := [] } := by
  have l1 : ∀ l ∈ pre, IsLine l := fun l hl => hlines l (by simp [hl])
  have l2 : IsLine s := hlines s (by simp)
  have l3 : ∀ l ∈ body, IsLine l := fun l hl => hlines l (by simp [hl])
  unfold readPemBlocksFromFile
  have e1 : unlines (pre ++ s :: body) ++ tail =
      unlines pre ++ (s ++ '\n' :: (unlines body ++ tail)) := by
    simp [unlines_append, unlines_cons]
  rw [e1, loop_spam_skips _ _ _ _ l1
    (fun l hl => start_none _ _ (hpre l hl)),
    loop_spam_start _ _ _ _ l2 i (start_some _ _ _ hs),
    loop_ham_bodies _ _ _ _ l3 (fun l hl h => hbody l hl ((stop_iff markers l i).1 h))]
  by_cases hn : tail = []
  · subst hn; exact loop_nil ..
  · rw [loop_step _ _ _ _ hn, readline_tail tail htail]
    have : ¬ (dictGet (strip tail) (stopMarkers markers)).map Int.ofNat = some (i : Int) :=
      fun h => ht hn ((stop_iff markers tail i).1 h)
    simp [this, loop_nil]

/-- Loop invariant: inside a block the returned index is the block's index. -/
theorem loop_ham_idx (starts stops : List (Text × Nat)) (i : Int) (cl : List Text) (file : Text) :
    (loop starts stops .ham i cl file).idx = i := by
  by_cases h : file = []
  · subst h; rw [loop_nil]
  · have := readline_length file h
    rw [loop_step _ _ _ _ h]
    simp only
    split
    · rfl
    · exact loop_ham_idx starts stops i _ _
termination_by file.length

theorem loop_spam_idx (starts stops : List (Text × Nat)) (cl : List Text) (ls : List Text)
    (tail : Text) (hlines : ∀ l ∈ ls, IsLine l) (htail : IsLine tail) :
    (loop starts stops .spam (-1) cl (unlines ls ++ tail)).idx = -1 ↔
      (∀ l ∈ ls, dictGet (strip l) starts = none) ∧
      (tail ≠ [] → dictGet (strip tail) starts = none) := by
  induction ls with
  | nil =>
    by_cases hn : tail = []
    · subst hn; simp [unlines_nil, loop_nil]
    · rw [unlines_nil, List.nil_append, loop_step _ _ _ _ hn, readline_tail tail htail]
      cases hd : dictGet (strip tail) starts with
      | none => simp [hd, loop_nil]
      | some i => simp [hd, loop_ham_idx, hn]
  | cons l ls ih =>
    have hl : IsLine l := hlines l (by simp)
    have ih := ih (fun m hm => hlines m (by simp [hm]))
    rw [unlines_cons, List.append_assoc, List.cons_append]
    cases hd : dictGet (strip l) starts with
    | none => rw [loop_spam_skip _ _ _ _ hl hd, ih]; simp [hd]
    | some i => rw [loop_spam_start _ _ _ _ hl i hd, loop_ham_idx]; simp [hd]

/-- **C02** (exactness).  The index is `-1` exactly when no line of the file is a start marker. -/
theorem idx_neg_iff (markers : List (Text × Text)) (ls : List Text) (tail : Text)
    (hlines : ∀ l ∈ ls, IsLine l) (htail : IsLine tail) :
    (readPemBlocksFromFile (unlines ls ++ tail) markers).idx = -1 ↔
      (∀ l ∈ ls, ¬ IsMarker (markers.map (·.1)) l) ∧
      (tail ≠ [] → ¬ IsMarker (markers.map (·.1)) tail) := by
  unfold readPemBlocksFromFile
  rw [loop_spam_idx _ _ _ _ _ hlines htail]
  unfold startMarkers IsMarker
  simp only [dictGet_enumerate_none]

example := no_block [("<a>".toList, "</a>".toList)] ["x".toList, "</a>".toList] "y".toList
  (by decide) (by decide) (by decide) (by decide)
example := unterminated [("<a>".toList, "</a>".toList)] ["x".toList] ["AAAA".toList] "<a>".toList
  "<a>".toList 0 (by decide) (by decide) (by decide)
  (by decide)
  (by decide)
  (by decide)

/-- A block in a file: separator text before it, its marker index, start line, body and stop line. -/
structure Block where
  pre : List Text
  start : Text
  body : List Text
  stop : Text
  i : Nat

/-- The lines a block occupies. -/
def Block.lines (b : Block) : List Text := b.pre ++ b.start :: b.body ++ [b.stop]

/-- A block is well formed for the given markers. -/
structure Block.Ok (markers : List (Text × Text)) (b : Block) : Prop where
  lines : ∀ l ∈ b.lines, IsLine l
  pre : ∀ l ∈ b.pre, ¬ IsMarker (markers.map (·.1)) l
  start : IsLastAt (markers.map (·.1)) (strip b.start) b.i
  body : ∀ l ∈ b.body, ¬ IsLastAt (markers.map (·.2)) (strip l) b.i
  stop : IsLastAt (markers.map (·.2)) (strip b.stop) b.i

/-- `n` successive calls on one file object. -/
def calls (markers : List (Text × Text)) : Nat → Text → List (Int × Substrate) × Text
  | 0, file => ([], file)
  | n + 1, file =>
    let r := readPemBlocksFromFile file markers
    let t := calls markers n r.rest
    ((r.idx, r.substrate) :: t.1, t.2)

/-- **C03.**  Successive calls return the blocks of the file in order and leave the file right after
the last of them. -/
theorem successive_blocks (markers : List (Text × Text)) (bs : List Block) (post : Text)
    (h : ∀ b ∈ bs, b.Ok markers) :
    calls markers bs.length (bs.flatMap (fun b => unlines b.lines) ++ post) =
      (bs.map (fun b => ((b.i : Int), bodyResult b.body)), post) := by
  induction bs with
  | nil => simp [calls]
  | cons b bs ih =>
    have hb := h b (by simp)
    have := first_block markers b.pre b.body b.start b.stop
      (bs.flatMap (fun b => unlines b.lines) ++ post) b.i hb.lines hb.pre hb.start hb.body hb.stop
    simp only [List.flatMap_cons, List.length_cons, calls, List.append_assoc]
    unfold Block.lines at *
    rw [this, ih (fun b' hb' => h b' (by simp [hb']))]
    simp

/-- **C03.**  After the last block, one more call reports that there is none. -/
theorem successive_blocks_end (markers : List (Text × Text)) (bs : List Block) (ls : List Text)
    (tail : Text) (h : ∀ b ∈ bs, b.Ok markers) (hlines : ∀ l ∈ ls, IsLine l) (htail : IsLine tail)
    (hl : ∀ l ∈ ls, ¬ IsMarker (markers.map (·.1)) l)
    (ht : tail ≠ [] → ¬ IsMarker (markers.map (·.1)) tail) :
    calls markers (bs.length + 1) (bs.flatMap (fun b => unlines b.lines) ++ (unlines ls ++ tail)) =
      (bs.map (fun b => ((b.i : Int), bodyResult b.body)) ++ [(-1, .emptyStr)], []) := by
  induction bs with
  | nil => simp [calls, no_block markers ls tail hlines htail hl ht]
  | cons b bs ih =>
    have hb := h b (by simp)
    have := first_block markers b.pre b.body b.start b.stop
      (bs.flatMap (fun b => unlines b.lines) ++ (unlines ls ++ tail)) b.i hb.lines hb.pre hb.start
      hb.body hb.stop
    simp only [List.flatMap_cons, List.length_cons, List.append_assoc]
    rw [calls]
    unfold Block.lines at *
    rw [this, ih (fun b' hb' => h b' (by simp [hb']))]
    simp

example : (Block.mk ["x".toList] "<a>".toList ["AAAA".toList] "</a>".toList 0).Ok
    [("<a>".toList, "</a>".toList)] where
  lines := by decide
  pre := by decide
  start := by decide
  body := by decide
  stop := by decide

/-- A marker text as used in practice: it survives `strip` and is not a base64 text because it
contains a dash. -/
structure GoodMarker (m : Text) : Prop where
  line : IsLine m
  stripped : strip m = m
  dash : '-' ∈ m

theorem base64_line_ok (b : Bytes) (l : Text) (h : ∀ c ∈ l, c ∈ base64 b) (e : Text)
    (he : GoodMarker e) : IsLine l ∧ strip l = l ∧ strip l ≠ e := by
  have hs : strip l = l := by
    apply strip_eq_self
    · intro c hc
      have : c ∈ l := List.mem_of_mem_head? (by simp [hc])
      exact (base64_not_special b c (h c this)).2.1
    · intro c hc
      have : c ∈ l := List.mem_of_getLast? hc
      exact (base64_not_special b c (h c this)).2.1
  refine ⟨fun hn => (base64_not_special b _ (h _ hn)).2.2.1 rfl, hs, ?_⟩
  rw [hs]
  rintro rfl
  exact (base64_not_special b _ (h _ he.dash)).2.2.2 rfl

/-- A PEM file with one block: start marker, base64 text in lines of width `w`, stop marker. -/
def pemFile (w : Nat) (s e : Text) (b : Bytes) : Text :=
  unlines (s :: wrap w (base64 b) ++ [e])

theorem wrap_body (w : Nat) (b : Bytes) (e : Text) (he : GoodMarker e) :
    ∀ l ∈ wrap w (base64 b), IsLine l ∧ strip l = l ∧ strip l ≠ e :=
  fun l hl => base64_line_ok b l (wrap_mem_sub w _ l hl) e he

theorem read_pemFile (w : Nat) (s e : Text) (hs : GoodMarker s) (he : GoodMarker e) (b : Bytes)
    (post : Text) :
    readPemBlocksFromFile (pemFile w s e b ++ post) [(s, e)] =
      { idx := 0, substrate := bodyResult (wrap w (base64 b)), rest := post } := by
  have := first_block_distinct [(s, e)] [] (wrap w (base64 b)) s e post 0 (by simp) (by simp)
    (by
      intro l hl
      simp only [List.nil_append, List.cons_append, List.mem_cons, List.mem_append, List.not_mem_nil, or_false] at hl
      rcases hl with rfl | hl | rfl
      · exact hs.line
      · exact (wrap_body w b e he l hl).1
      · exact he.line)
    (by simp) (by simp [hs.stripped, he.stripped])
    (fun l hl => by rw [he.stripped]; exact (wrap_body w b e he l hl).2.2)
  simpa [pemFile] using this

theorem bodyResult_wrap (w : Nat) (b : Bytes) (e : Text) (he : GoodMarker e) :
    bodyResult (wrap w (base64 b)) =
      dumped (wrap w (base64 b)) := by
  have : (wrap w (base64 b)).map strip = wrap w (base64 b) := by
    rw [List.map_congr_left (fun l hl => (wrap_body w b e he l hl).2.1)]; simp
  rw [← dump_bodyResult, this]

/-- **C04.**  Wrapping base64 at a width divisible by four round-trips, for every byte string. -/
theorem wrap_roundtrip (k : Nat) (hk : k ≠ 0) (s e : Text) (hs : GoodMarker s) (he : GoodMarker e)
    (b : Bytes) (post : Text) :
    readPemBlocksFromFile (pemFile (4 * k) s e b ++ post) [(s, e)] =
      { idx := 0, substrate := .bytes b, rest := post } := by
  rw [read_pemFile _ s e hs he, bodyResult_wrap _ _ e he, dumped, dump_wrap k hk b]

/-- **C04** for `readPemFromFile` with its default markers. -/
theorem readPemFromFile_roundtrip (k : Nat) (hk : k ≠ 0) (b : Bytes) (post : Text) :
    readPemFromFile (pemFile (4 * k) "-----BEGIN CERTIFICATE-----".toList
      "-----END CERTIFICATE-----".toList b ++ post) = .bytes b := by
  unfold readPemFromFile defaultStart defaultEnd
  rw [wrap_roundtrip k hk _ _ ⟨by decide, by decide +kernel, by decide⟩
    ⟨by decide, by decide +kernel, by decide⟩]

/-- **C04** (width not divisible by four).  As soon as the first line is full, reading fails with an
exception, for every byte string. -/
theorem wrap_fails (w : Nat) (hw : w % 4 ≠ 0) (s e : Text) (hs : GoodMarker s) (he : GoodMarker e)
    (b : Bytes) (hlen : w ≤ 4 * (b.length / 3)) (post : Text) :
    (readPemBlocksFromFile (pemFile w s e b ++ post) [(s, e)]).substrate = .raised := by
  rw [read_pemFile _ s e hs he, bodyResult_wrap _ _ e he, dumped, dump_wrap_bad w b hw hlen]

theorem filter_base64 (b : Bytes) : (base64 b).filter (fun c => !foreign c) = base64 b := by
  rw [List.filter_eq_self]
  intro c hc; simp [(base64_not_special b c hc).1]

/-- **C08.**  Decoding inverts the standard encoding whatever foreign characters (not base64 digits,
not `=`) are inserted. -/
theorem readBase64_inserted (b : Bytes) (t : Text)
    (h : t.filter (fun c => alphabet.contains c || c == '=') = base64 b) :
    readBase64fromText t = some b := by
  unfold readBase64fromText
  rw [decode_filter]
  have : (fun c => !foreign c) = (fun c => alphabet.contains c || c == '=') := by
    funext c; simp [foreign, bne]
  rw [this, h, decode_base64]

/-- **C08** for the file variant. -/
theorem readBase64FromFile_inserted (b : Bytes) (t : Text)
    (h : t.filter (fun c => alphabet.contains c || c == '=') = base64 b) :
    readBase64FromFile t = some b := readBase64_inserted b t h

/-- **C08.**  Exactly which texts are decoded and to what; all others raise `binascii.Error`. -/
theorem readBase64_iff (t : Text) (b : Bytes) :
    readBase64fromText t = some b ↔ Lenient (t.filter (fun c => alphabet.contains c || c == '=')) b := by
  unfold readBase64fromText
  rw [decode_filter]
  have : (fun c => !foreign c) = (fun c => alphabet.contains c || c == '=') := by
    funext c; simp [foreign, bne]
  rw [this]
  constructor
  · apply decode_lenient
    intro c hc
    have := (List.mem_filter.1 hc).2
    simp only [Bool.or_eq_true, List.contains_iff_mem, beq_iff_eq] at this
    exact this.symm
  · exact lenient_decode _ _

/-- **C08.**  Two encodings one after the other: the second is lost if the first ends with padding. -/
theorem readBase64_two (a b : Bytes) :
    readBase64fromText (base64 a ++ base64 b) = some (if a.length % 3 = 0 then a ++ b else a) := by
  unfold readBase64fromText
  match a with
  | [] => simp [base64, decode_base64]
  | [x] =>
    have := x.toNat_lt
    have hl := Lenient.one 0 0 (x.toNat * 65536 / 262144) (x.toNat * 65536 / 4096 % 64) (base64 b) (by omega) (by omega)
    have e : (x.toNat * 65536 / 262144 * 64 + x.toNat * 65536 / 4096 % 64) / 16 = x.toNat := by omega
    rw [e, UInt8.ofNat_toNat] at hl
    exact lenient_decode _ _ hl
  | [x, y] =>
    have := x.toNat_lt
    have := y.toNat_lt
    have hl := Lenient.two 0 0 0 ((x.toNat * 65536 + y.toNat * 256) / 262144) ((x.toNat * 65536 + y.toNat * 256) / 4096 % 64)
      ((x.toNat * 65536 + y.toNat * 256) / 64 % 64) (base64 b) (by omega) (by omega) (by omega) (by omega)
    have e : ((x.toNat * 65536 + y.toNat * 256) / 262144 * 64 + (x.toNat * 65536 + y.toNat * 256) / 4096 % 64) / 16 = x.toNat := by
      omega
    have e' : ((x.toNat * 65536 + y.toNat * 256) / 262144 * 4096 + (x.toNat * 65536 + y.toNat * 256) / 4096 % 64 * 64 +
        (x.toNat * 65536 + y.toNat * 256) / 64 % 64) / 4 % 256 = y.toNat := by omega
    rw [e, e', UInt8.ofNat_toNat, UInt8.ofNat_toNat] at hl
    exact lenient_decode _ _ hl
  | x :: y :: z :: a =>
    have ih := readBase64_two a b
    unfold readBase64fromText at ih
    rw [base64_cons3, List.append_assoc, decode_quad, ih]
    have : (x :: y :: z :: a).length % 3 = a.length % 3 := by simp only [List.length_cons]; omega
    rw [this]
    split <;> rfl

/-- Padding, stray bits and what comes after: `QQ==`, `QR==` and `=Q=Q=QQUI=...`. -/
example : readBase64fromText "QR==".toList = some [65] ∧ readBase64fromText "QQ==QQ==".toList = some [65] ∧
    readBase64fromText "=Q=Q=FB QUI=x".toList = some [65, 1, 65, 65, 66] ∧ readBase64fromText "QQ=".toList = none := by
  decide +kernel

/-- **C04/C08**: the whole-text helper reads base64 wrapped at *any* width. -/
theorem readBase64_any_width (w : Nat) (hw : w ≠ 0) (b : Bytes) :
    readBase64fromText (unlines (wrap w (base64 b))) = some b := by
  apply readBase64_inserted
  have e1 : (fun c => alphabet.contains c || c == '=') = (fun c => !foreign c) := by
    funext c; simp [foreign, bne]
  rw [e1]
  have : ∀ ls : List Text, (unlines ls).filter (fun c => !foreign c) =
      ls.flatten.filter (fun c => !foreign c) := by
    intro ls
    induction ls with
    | nil => rfl
    | cons l ls ih =>
      rw [unlines_cons, List.filter_append, List.flatten_cons, List.filter_append, ← ih]
      have : foreign '\n' = true := by decide +kernel
      simp [List.filter, this]
  rw [this, wrap_flatten w _ hw, filter_base64]

example : GoodMarker "-----BEGIN X509 CRL-----".toList := ⟨by decide, by decide +kernel, by decide⟩
example : "QU\n JD!".toList.filter (fun c => alphabet.contains c || c == '=') = base64 [65, 66, 67] := by
  decide +kernel

/-- **C05.**  Two files whose lines agree after stripping give the same answer. -/
theorem whitespace_insensitive (markers : List (Text × Text)) (ls ls' : List Text)
    (h : ∀ l ∈ ls, IsLine l) (h' : ∀ l ∈ ls', IsLine l) (heq : ls.map strip = ls'.map strip) :
    (readPemBlocksFromFile (unlines ls) markers).idx =
      (readPemBlocksFromFile (unlines ls') markers).idx ∧
    (readPemBlocksFromFile (unlines ls) markers).substrate =
      (readPemBlocksFromFile (unlines ls') markers).substrate := by
  unfold readPemBlocksFromFile
  suffices H : ∀ (st : State) (idx : Int) (cl : List Text),
      (loop (startMarkers markers) (stopMarkers markers) st idx cl (unlines ls)).idx =
        (loop (startMarkers markers) (stopMarkers markers) st idx cl (unlines ls')).idx ∧
      (loop (startMarkers markers) (stopMarkers markers) st idx cl (unlines ls)).substrate =
        (loop (startMarkers markers) (stopMarkers markers) st idx cl (unlines ls')).substrate from
    H _ _ _
  induction ls generalizing ls' with
  | nil =>
    have : ls' = [] := by simpa using heq.symm
    subst this; simp
  | cons l ls ih =>
    cases ls' with
    | nil => simp at heq
    | cons l' ls' =>
      simp only [List.map_cons, List.cons.injEq] at heq
      have hl : IsLine l := h l (by simp)
      have hl' : IsLine l' := h' l' (by simp)
      have ih := ih ls' (fun m hm => h m (by simp [hm])) (fun m hm => h' m (by simp [hm])) heq.2
      intro st idx cl
      rw [unlines_cons, unlines_cons]
      cases st with
      | spam =>
        cases hd : dictGet (strip l) (startMarkers markers) with
        | none =>
          rw [loop_spam_skip _ _ _ _ hl hd, loop_spam_skip _ _ _ _ hl' (heq.1 ▸ hd)]
          exact ih _ _ _
        | some i =>
          rw [loop_spam_start _ _ _ _ hl i hd, loop_spam_start _ _ _ _ hl' i (heq.1 ▸ hd)]
          exact ih _ _ _
      | ham =>
        by_cases hd : (dictGet (strip l) (stopMarkers markers)).map Int.ofNat = some idx
        · rw [loop_ham_stop _ _ _ _ hl hd, loop_ham_stop _ _ _ _ hl' (heq.1 ▸ hd)]
          exact ⟨rfl, rfl⟩
        · rw [loop_ham_body _ _ _ _ hl hd, loop_ham_body _ _ _ _ hl' (heq.1 ▸ hd), heq.1]
          exact ih _ _ _

/-- **C05.**  In particular any white space may be put around the lines (e.g. carriage returns). -/
theorem padding_insensitive (markers : List (Text × Text)) (ls : List (Text × Text × Text))
    (h : ∀ p ∈ ls, IsLine p.1 ∧ IsLine p.2.1 ∧ IsLine p.2.2)
    (hsp : ∀ p ∈ ls, (∀ c ∈ p.1, isSpace c = true) ∧ (∀ c ∈ p.2.2, isSpace c = true)) :
    (readPemBlocksFromFile (unlines (ls.map (fun p => p.1 ++ p.2.1 ++ p.2.2))) markers).idx =
      (readPemBlocksFromFile (unlines (ls.map (·.2.1))) markers).idx ∧
    (readPemBlocksFromFile (unlines (ls.map (fun p => p.1 ++ p.2.1 ++ p.2.2))) markers).substrate =
      (readPemBlocksFromFile (unlines (ls.map (·.2.1))) markers).substrate := by
  apply whitespace_insensitive
  · intro l hl
    obtain ⟨p, hp, rfl⟩ := List.mem_map.1 hl
    obtain ⟨a, b, c⟩ := h p hp
    intro hm
    simp only [List.mem_append] at hm
    rcases hm with (hm | hm) | hm
    · exact a hm
    · exact b hm
    · exact c hm
  · intro l hl
    obtain ⟨p, hp, rfl⟩ := List.mem_map.1 hl
    exact (h p hp).2.1
  · rw [List.map_map, List.map_map]
    apply List.map_congr_left
    intro p hp
    exact strip_pad _ _ _ (hsp p hp).1 (hsp p hp).2

/-- **C06.**  Inside a block, a line equal to any start marker, or to the stop marker of another
pair, is a body line: it is passed to the base64 decoder and the block goes on. -/
theorem foreign_markers_are_body (markers : List (Text × Text)) (i : Nat) (s e l post : Text)
    (h1 : (markers.map (·.1)).Nodup) (h2 : (markers.map (·.2)).Nodup)
    (hlines : ∀ x ∈ [s, l, e], IsLine x)
    (hpair : markers[i]? = some (strip s, strip e))
    (hother : (∃ m ∈ markers, strip l = m.1 ∨ strip l = m.2) ∧ strip l ≠ strip e) :
    readPemBlocksFromFile (unlines [s, l, e] ++ post) markers =
      { idx := i, substrate := bodyResult [l], rest := post } := by
  have := first_block_distinct markers [] [l] s e post i h1 h2 (by simpa using hlines) (by simp)
    hpair (by simpa using hother.2)
  simpa using this

example := foreign_markers_are_body [("<a>".toList, "</a>".toList), ("<b>".toList, "</b>".toList)]
  0 "<a>".toList "</a>".toList "</b>".toList [] (by decide) (by decide) (by decide) (by decide)
  (by decide)

/-- **C07.**  The index reported for a start marker is the highest position with that text. -/
theorem duplicate_start_last_wins (markers : List (Text × Text)) (s rest : Text) (hs : IsLine s)
    (i : Nat) (hi : IsLastAt (markers.map (·.1)) (strip s) i) :
    (readPemBlocksFromFile (s ++ '\n' :: rest) markers).idx = i := by
  unfold readPemBlocksFromFile
  rw [loop_spam_start _ _ _ _ hs i (start_some _ _ _ hi), loop_ham_idx]

/-- **C07.**  If the stop marker of pair `i` is used again by a later pair, a block of pair `i`
never ends: whatever follows the start marker, the result is empty and the file is exhausted. -/
theorem reused_stop_never_ends (markers : List (Text × Text)) (i : Nat) (s rest : Text)
    (hs : IsLine s) (hi : IsLastAt (markers.map (·.1)) (strip s) i) (e : Text)
    (he : (markers.map (·.2))[i]? = some e)
    (hlate : ∃ j, i < j ∧ (markers.map (·.2))[j]? = some e) :
    readPemBlocksFromFile (s ++ '\n' :: rest) markers =
      { idx := i, substrate := .emptyStr, rest := [] } := by
  obtain ⟨ls, tail, rfl, h1, h2⟩ := text_decomp rest
  have hno : ∀ l, ¬ IsLastAt (markers.map (·.2)) (strip l) i := by
    intro l hl
    obtain ⟨j, hj, hje⟩ := hlate
    have : strip l = e := by have := hl.1; rw [he] at this; exact (Option.some.inj this).symm
    exact hl.2 j hj (this ▸ hje)
  have := unterminated markers [] ls s tail i
    (by
      intro l hl
      simp only [List.nil_append, List.mem_cons] at hl
      rcases hl with rfl | hl
      · exact hs
      · exact h1 l hl) h2 (by simp) hi (fun l _ => hno l) (fun _ => hno tail)
  simpa [unlines_cons] using this

example := reused_stop_never_ends [("<a>".toList, "</x>".toList), ("<b>".toList, "</x>".toList)] 0
  "<a>".toList "AAAA\n</x>\n".toList (by decide)
  (by decide) "</x>".toList (by decide) ⟨1, by decide, by decide⟩

end Verif.Props.Pem
