import Verif.Props.Pem
import Verif.Pem.VersionsLemmas

/-!
# C64: the same octets under every interpreter

`pem.py` branches on the interpreter version.  The branch for Python 2 works on byte strings, the
other one on text.
-/

namespace Verif.Props.Versions
open Verif.Spec Verif.Pem

/-- Files on which the two branches see the same lines: a carriage return only before a line feed
or at the very end, and no white space other than that of ASCII (`str.strip` of Python 3 removes
more). -/
def Portable (t : Text) : Prop := CrLf t ∧ ∀ c ∈ t, isSpace c = true → asciiBlank c = true

theorem blank_space (c : Char) (h : asciiBlank c = true) : isSpace c = true := by
  have : ∀ d ∈ ['\t', '\n', '\x0b', '\x0c', '\r', ' '], isSpace d = true := by decide +kernel
  exact this c (by simpa [asciiBlank] using h)

theorem portable_blanks (t : Text) (h : Portable t) : ∀ c ∈ t, isSpace c = asciiBlank c := by
  intro c hc
  cases h1 : isSpace c
  · cases h2 : asciiBlank c
    · rfl
    · rw [blank_space c h2] at h1; cases h1
  · exact (h.2 c hc h1).symm

/-- Markers as byte strings. -/
def utf8Markers (markers : List (Text × Text)) : List (Bytes × Bytes) :=
  markers.map fun m => (encodeUtf8 m.1, encodeUtf8 m.2)

/-- **C64.**  Python 2 reading the bytes of a file, and Python 3 reading the file in text mode: the
same marker index, the same octets or an exception in both, and the same part of the file left
unread. -/
theorem blocks_same (t : Text) (markers : List (Text × Text)) (h : Portable t) :
    ∃ rest, rest <:+ t ∧
      Octets.readPemBlocksFromFile (encodeUtf8 t) (utf8Markers markers) =
        { idx := (readPemBlocksFromFile (universalNewlines t) markers).idx,
          substrate := (readPemBlocksFromFile (universalNewlines t) markers).substrate,
          rest := encodeUtf8 rest } ∧
      (readPemBlocksFromFile (universalNewlines t) markers).rest = universalNewlines rest := by
  obtain ⟨t', h1, h2, h3⟩ := Octets.loop_same (startMarkers markers) (stopMarkers markers)
    (t.length + 1) t .spam (-1) [] (by omega) h.1 (portable_blanks t h)
  refine ⟨t', h1, ?_, h3⟩
  refine Eq.trans ?_ h2
  unfold Octets.readPemBlocksFromFile startMarkers stopMarkers
  rw [← Octets.enumerate_encode, ← Octets.enumerate_encode]
  simp [utf8Markers, List.map_map, Function.comp_def]

/-- **C64** for `readPemFromFile`, any markers: what a Python 2 caller gets. -/
theorem pem_same (t s e : Text) (h : Portable t) :
    Octets.readPemFromFile (encodeUtf8 t) (encodeUtf8 s) (encodeUtf8 e) =
      Octets.returned (readPemFromFile (universalNewlines t) s e) := by
  obtain ⟨_, _, h2, _⟩ := blocks_same t [(s, e)] h
  have h2' : Octets.readPemBlocksFromFile (encodeUtf8 t) [(encodeUtf8 s, encodeUtf8 e)] = _ := h2
  unfold Octets.readPemFromFile readPemFromFile
  rw [h2']

/-- **C64.**  The base64 decoders of the two interpreters agree on all byte strings. -/
theorem decoders_agree (s : Bytes) : Octets.b64decode s = b64decode s := Octets.b64decode_same s

/-- **C64** for `readBase64fromText`, every text. -/
theorem base64_text_same (t : Text) :
    Octets.readBase64fromText (encodeUtf8 t) = readBase64fromText t :=
  Octets.b64decode_same _

theorem newlines_filter (t : Text) :
    (universalNewlines t).filter (fun c => !foreign c) = t.filter (fun c => !foreign c) := by
  have hr : foreign '\r' = true := by decide +kernel
  have hn : foreign '\n' = true := by decide +kernel
  fun_induction universalNewlines t with
  | case1 => rfl
  | case2 s ih => simp [List.filter, hr, hn, ih]
  | case3 s _ ih => simp [List.filter, hr, hn, ih]
  | case4 c s _ _ ih => simp only [List.filter]; rw [ih]

/-- **C64** for `readBase64FromFile`, every file, whatever its line ends and blanks. -/
theorem base64_file_same (t : Text) :
    Octets.readBase64FromFile (encodeUtf8 t) = readBase64FromFile (universalNewlines t) := by
  unfold Octets.readBase64FromFile readBase64FromFile
  rw [base64_text_same]
  unfold readBase64fromText
  rw [decode_filter, decode_filter (universalNewlines t), newlines_filter]

/-! ### Files as they are written -/

theorem crlf_cons (c : Char) (s : Text) (h : c = '\r' → s = [] ∨ s.head? = some '\n')
    (hs : CrLf s) : CrLf (c :: s) := by
  intro a b e
  cases a with
  | nil =>
    simp only [List.nil_append, List.cons.injEq] at e
    rw [← e.2]; exact h e.1
  | cons d a =>
    simp only [List.cons_append, List.cons.injEq] at e
    exact hs a b e.2

theorem crlf_plain (m s : Text) (h : '\r' ∉ m) (hs : CrLf s) : CrLf (m ++ s) := by
  induction m with
  | nil => exact hs
  | cons c m ih =>
    exact crlf_cons c _ (fun e => absurd (by simp [e]) h) (ih (fun hm => h (by simp [hm])))

/-- A file with the given lines and line end. -/
def linesWith (eol : Text) (ls : List Text) : Text := ls.flatMap (· ++ eol)

theorem linesWith_ok (eol : Text) (heol : eol = ['\n'] ∨ eol = ['\r', '\n']) (ls : List Text)
    (h : ∀ l ∈ ls, '\r' ∉ l) :
    CrLf (linesWith eol ls) ∧ universalNewlines (linesWith eol ls) = unlines ls := by
  induction ls with
  | nil => exact ⟨fun a b e => by simp [linesWith] at e, rfl⟩
  | cons l ls ih =>
    obtain ⟨i1, i2⟩ := ih (fun m hm => h m (by simp [hm]))
    have hl := h l (by simp)
    have e : linesWith eol (l :: ls) = l ++ (eol ++ linesWith eol ls) := by simp [linesWith]
    rw [e, Octets.newlines_append _ _ hl, unlines_cons, ← i2]
    rcases heol with rfl | rfl
    · refine ⟨crlf_plain _ _ hl (crlf_cons _ _ (fun e => absurd e (by decide)) i1), ?_⟩
      rw [List.cons_append, Octets.newlines_cons _ _ (by decide)]; rfl
    · exact ⟨crlf_plain _ _ hl (crlf_cons _ _ (fun _ => .inr rfl) (crlf_cons _ _ (fun e => absurd e (by decide)) i1)),
        rfl⟩

/-- **C64.**  A certificate file as written by any tool (base64 in lines of a multiple of four
characters, line feed or carriage return + line feed) gives back its octets under Python 2. -/
theorem python2_roundtrip (eol : Text) (heol : eol = ['\n'] ∨ eol = ['\r', '\n']) (k : Nat)
    (hk : k ≠ 0) (b : Bytes) :
    Octets.readPemFromFile (encodeUtf8 (linesWith eol
      ("-----BEGIN CERTIFICATE-----".toList :: wrap (4 * k) (base64 b) ++
        ["-----END CERTIFICATE-----".toList]))) = some b := by
  have key : ∀ l ∈ "-----BEGIN CERTIFICATE-----".toList :: wrap (4 * k) (base64 b) ++
      ["-----END CERTIFICATE-----".toList], ∀ c ∈ l, isSpace c = true → c = ' ' := by
    intro l hl c hc hs
    simp only [List.cons_append, List.mem_cons, List.mem_append, List.not_mem_nil, or_false] at hl
    rcases hl with rfl | hl | rfl
    · have : ∀ c ∈ "-----BEGIN CERTIFICATE-----".toList, isSpace c = true → c = ' ' := by
        decide +kernel
      exact this c hc hs
    · have := (base64_not_special b c (wrap_mem_sub _ _ l hl c hc)).2.1
      rw [this] at hs; cases hs
    · have : ∀ c ∈ "-----END CERTIFICATE-----".toList, isSpace c = true → c = ' ' := by
        decide +kernel
      exact this c hc hs
  have hcr : ∀ l ∈ "-----BEGIN CERTIFICATE-----".toList :: wrap (4 * k) (base64 b) ++
      ["-----END CERTIFICATE-----".toList], '\r' ∉ l :=
    fun l hl hm => absurd (key l hl '\r' hm (by decide)) (by decide)
  obtain ⟨h1, h2⟩ := linesWith_ok eol heol _ hcr
  have hp : Portable (linesWith eol ("-----BEGIN CERTIFICATE-----".toList ::
      wrap (4 * k) (base64 b) ++ ["-----END CERTIFICATE-----".toList])) := by
    refine ⟨h1, fun c hc hs => ?_⟩
    obtain ⟨l, hl, hc⟩ := List.mem_flatMap.1 hc
    rcases List.mem_append.1 hc with hc | hc
    · rw [key l hl c hc hs]; decide
    · rcases heol with rfl | rfl
      · have : ∀ c ∈ ['\n'], asciiBlank c = true := by decide
        exact this c hc
      · have : ∀ c ∈ ['\r', '\n'], asciiBlank c = true := by decide
        exact this c hc
  have := pem_same _ defaultStart defaultEnd hp
  unfold Octets.readPemFromFile at this ⊢
  rw [this, h2]
  have := Props.Pem.readPemFromFile_roundtrip k hk b []
  rw [List.append_nil] at this
  unfold Props.Pem.pemFile at this
  rw [this]; rfl

/-! ### Where the interpreters differ -/

theorem readline_noLf (f : Bytes) (h : (10 : UInt8) ∉ f) : Octets.readline f = (f, []) := by
  have := Octets.readline_bytes f [] h
  simpa [Octets.readline] using this

/-- **C64.**  A file without line feeds (lines ended by carriage returns alone) gives Python 2
nothing, whatever it contains: all of it is one line. -/
theorem python2_no_linefeed (f : Bytes) (markers : List (Bytes × Bytes)) (h : (10 : UInt8) ∉ f) :
    (Octets.readPemBlocksFromFile f markers).substrate = .emptyStr ∧
    (Octets.readPemBlocksFromFile f markers).rest = [] := by
  unfold Octets.readPemBlocksFromFile
  by_cases h0 : f = []
  · subst h0; rw [Octets.loop_nil]; exact ⟨rfl, rfl⟩
  · rw [Octets.loop_step _ _ _ _ _ _ _ h0, readline_noLf f h]
    simp only
    split <;> (rw [Octets.loop_nil]; exact ⟨rfl, rfl⟩)

/-! ### Binary files under Python 3 -/

/-- **C64.**  Python 3, a file opened in binary mode and text markers (as by default): never a block,
whatever the file and the markers; the file is read to its end. -/
theorem binary_text_markers (f : Bytes) (markers : List (Text × Text)) :
    Octets.readPemBlocksFromBinaryText f markers =
      { idx := -1, substrate := .emptyStr, rest := [] } := by
  unfold Octets.readPemBlocksFromBinaryText
  generalize hn : f.length = n
  induction n using Nat.strongRecOn generalizing f with
  | ind n ih =>
    by_cases h0 : f = []
    · subst h0; rw [Octets.loop_nil]
    · rw [Octets.loop_step _ _ _ _ _ _ _ h0]
      have := Octets.readline_length f h0
      exact ih _ (by omega) _ rfl

theorem binary_dumped (cl : List Bytes) :
    Octets.dumped Octets.noEncode cl = if cl = [] then .bytes [] else .raised := by
  cases cl with
  | nil => rfl
  | cons x cl => rfl

/-- **C64.**  Python 3, binary file, byte string markers: no octets are ever returned; an exception
unless no complete block with at least one line comes. -/
theorem binary_never_octets (f : Bytes) (markers : List (Bytes × Bytes)) (b : Bytes)
    (h : (Octets.readPemBlocksFromBinary f markers).substrate = .bytes b) : b = [] := by
  unfold Octets.readPemBlocksFromBinary at h
  generalize State.spam = st at h
  generalize (-1 : Int) = idx at h
  generalize ([] : List Bytes) = cl at h
  generalize hn : f.length = n at h
  induction n using Nat.strongRecOn generalizing f st idx cl with
  | ind n ih =>
    by_cases h0 : f = []
    · subst h0; rw [Octets.loop_nil] at h; cases h
    · rw [Octets.loop_step _ _ _ _ _ _ _ h0] at h
      have hl := Octets.readline_length f h0
      cases st with
      | spam =>
        simp only at h
        split at h
        · exact ih _ (by omega) _ _ _ _ h rfl
        · exact ih _ (by omega) _ _ _ _ h rfl
      | ham =>
        simp only at h
        split at h
        · rw [binary_dumped] at h
          split at h
          · exact (Substrate.bytes.inj h).symm
          · cases h
        · exact ih _ (by omega) _ _ _ _ h rfl

/-- **C64.**  Compared with Python 2 on the same file and markers: the same index and the same rest of
the file, no block exactly if Python 2 finds none; where Python 2 returns octets or raises, an
exception is raised, unless the block has no octets. -/
theorem binary_result (f : Bytes) (markers : List (Bytes × Bytes)) :
    (Octets.readPemBlocksFromBinary f markers).idx = (Octets.readPemBlocksFromFile f markers).idx ∧
    (Octets.readPemBlocksFromBinary f markers).rest = (Octets.readPemBlocksFromFile f markers).rest ∧
    ((Octets.readPemBlocksFromBinary f markers).substrate = .emptyStr ↔
      (Octets.readPemBlocksFromFile f markers).substrate = .emptyStr) ∧
    ((Octets.readPemBlocksFromFile f markers).substrate ∉ [.emptyStr, .bytes []] →
      (Octets.readPemBlocksFromBinary f markers).substrate = .raised) := by
  unfold Octets.readPemBlocksFromBinary Octets.readPemBlocksFromFile
  generalize State.spam = st
  generalize (-1 : Int) = idx
  generalize ([] : List Bytes) = cl
  generalize hn : f.length = n
  induction n using Nat.strongRecOn generalizing f st idx cl with
  | ind n ih =>
    by_cases h0 : f = []
    · subst h0
      rw [Octets.loop_nil, Octets.loop_nil]
      exact ⟨rfl, rfl, Iff.rfl, fun h => by simp at h⟩
    · rw [Octets.loop_step _ _ _ _ _ _ _ h0, Octets.loop_step _ _ _ _ _ _ _ h0]
      have hl := Octets.readline_length f h0
      cases st with
      | spam =>
        simp only
        split
        · exact ih _ (by omega) _ _ _ _ rfl
        · exact ih _ (by omega) _ _ _ _ rfl
      | ham =>
        simp only
        split
        · refine ⟨rfl, rfl, ?_, ?_⟩
          · rw [binary_dumped]
            unfold Octets.dumped
            split <;> split <;> simp
          · rw [binary_dumped]
            intro h
            split
            · rename_i hc
              subst hc
              simp [Octets.dumped, Octets.dump] at h
            · rfl
        · exact ih _ (by omega) _ _ _ _ rfl

/-! ### Concrete cases -/

namespace Examples

/-- A portable file with carriage returns, and what is read from it. -/
theorem crlf_file :
    Portable "x\r\n-----BEGIN CERTIFICATE-----\r\n MAA= \r\n-----END CERTIFICATE-----\r\ny\r".toList ∧
    Octets.readPemFromFile (encodeUtf8
      "x\r\n-----BEGIN CERTIFICATE-----\r\n MAA= \r\n-----END CERTIFICATE-----\r\ny\r".toList) =
      some [48, 0] := by
  have hp : Portable "x\r\n-----BEGIN CERTIFICATE-----\r\n MAA= \r\n-----END CERTIFICATE-----\r\ny\r".toList := by
    constructor
    · have : ∀ (s : Text), (s.zipIdx.all fun p => p.1 != '\r' || p.2 + 1 == s.length ||
          s[p.2 + 1]? == some '\n') = true → CrLf s := by
        intro s hs a b e
        subst e
        have h1 : ('\r', a.length) ∈ (a ++ '\r' :: b).zipIdx := by
          rw [List.mem_zipIdx_iff_getElem?]; simp
        have := List.all_eq_true.1 hs _ h1
        cases b with
        | nil => left; rfl
        | cons d b =>
          right
          simp at this
          simpa using this
      exact this _ (by decide +kernel)
    · decide +kernel
  exact ⟨hp, by rw [pem_same _ defaultStart defaultEnd hp]; decide +kernel⟩

/-- Lines ended by carriage returns alone: read by Python 3, not by Python 2. -/
theorem cr_only :
    readPemFromFile (universalNewlines
      "-----BEGIN CERTIFICATE-----\rMAA=\r-----END CERTIFICATE-----\r".toList) = .bytes [48, 0] ∧
    Octets.readPemFromFile (encodeUtf8
      "-----BEGIN CERTIFICATE-----\rMAA=\r-----END CERTIFICATE-----\r".toList) = some [] := by
  refine ⟨?_, ?_⟩
  · decide +kernel
  · unfold Octets.readPemFromFile
    rw [(python2_no_linefeed _ _ (by decide +kernel)).1]; rfl

/-- A no-break space before the marker: removed by Python 3, not by Python 2. -/
theorem no_break_space :
    readPemFromFile "\u00a0-----BEGIN CERTIFICATE-----\nMAA=\n-----END CERTIFICATE-----\n".toList =
      .bytes [48, 0] ∧
    Octets.readPemFromFile (encodeUtf8
      "\u00a0-----BEGIN CERTIFICATE-----\nMAA=\n-----END CERTIFICATE-----\n".toList) = some [] := by
  decide +kernel

/-- A binary file with a certificate, byte string markers: an exception. -/
theorem binary_raises :
    (Octets.readPemBlocksFromBinary (encodeUtf8
      "-----BEGIN CERTIFICATE-----\nMAA=\n-----END CERTIFICATE-----\n".toList)
      [(encodeUtf8 defaultStart, encodeUtf8 defaultEnd)]).substrate = .raised := by
  decide +kernel

end Examples

end Verif.Props.Versions
