/-!
# Model of `/repo/pyasn1_modules/pem.py`

Text is a list of Unicode scalar values, a file object is the text it has not
yet read.  `binascii.a2b_base64` (called by `base64.b64decode` without
`validate`), `str.strip`, `str.encode` and `TextIOBase.readline` belong to
CPython and are modelled here as the environment.
-/

namespace Verif.Pem

abbrev Text := List Char
abbrev Bytes := List UInt8

/-! ## Environment: CPython -/

/-- CPython `str.strip()` white space: the code points with `str.isspace()`. -/
def isSpace (c : Char) : Bool :=
  let n := c.toNat
  (9 ≤ n && n ≤ 13) || (28 ≤ n && n ≤ 32) || n == 0x85 || n == 0xA0 || n == 0x1680 ||
  (0x2000 ≤ n && n ≤ 0x200A) || n == 0x2028 || n == 0x2029 || n == 0x202F || n == 0x205F ||
  n == 0x3000

/-- `str.strip()`. -/
def strip (s : Text) : Text :=
  ((s.dropWhile isSpace).reverse.dropWhile isSpace).reverse

/-- `fileObj.readline()`: the text up to and including the next newline (or up to the end),
and what is left to read. -/
def readline : Text → Text × Text
  | [] => ([], [])
  | c :: s => if c = '\n' then (['\n'], s) else
      let r := readline s
      (c :: r.1, r.2)

/-- `str.encode()` (UTF-8). -/
def encodeUtf8 (s : Text) : Bytes := s.flatMap String.utf8EncodeChar

/-- CPython's `table_a2b_base64`: value of a base64 digit, `none` for other bytes. -/
def a2bTable (b : UInt8) : Option Nat :=
  let n := b.toNat
  if 65 ≤ n ∧ n ≤ 90 then some (n - 65)
  else if 97 ≤ n ∧ n ≤ 122 then some (n - 97 + 26)
  else if 48 ≤ n ∧ n ≤ 57 then some (n - 48 + 52)
  else if n = 43 then some 62
  else if n = 47 then some 63
  else none

/-- CPython `binascii.a2b_base64` (non-strict): `q` = quad_pos, `left` = leftchar, `pads` = pads.
`none` means `binascii.Error` is raised. -/
def a2b (q left pads : Nat) : Bytes → Option Bytes
  | [] => if q = 0 then some [] else none
  | ch :: rest =>
    if ch.toNat = 61 then
      if q ≥ 2 then
        if q + (pads + 1) ≥ 4 then some [] else a2b q left (pads + 1) rest
      else a2b q left pads rest
    else match a2bTable ch with
      | none => a2b q left pads rest
      | some v =>
        if q = 0 then a2b 1 v 0 rest
        else if q = 1 then
          (a2b 2 (v % 16) 0 rest).map (UInt8.ofNat (left * 4 + v / 16) :: ·)
        else if q = 2 then
          (a2b 3 (v % 4) 0 rest).map (UInt8.ofNat (left * 16 + v / 4) :: ·)
        else
          (a2b 0 0 0 rest).map (UInt8.ofNat (left * 64 + v) :: ·)

/-- `base64.b64decode(s)` on a byte string. -/
def b64decode (s : Bytes) : Option Bytes := a2b 0 0 0 s

/-! ## pem.py -/

/-- pem.py:10 `stSpam, stHam, stDump = 0, 1, 2`; the loop never starts an iteration in `stDump`
because reaching it leads to `break` in the same iteration (pem.py:40-45). -/
inductive State | spam | ham
  deriving DecidableEq, Repr

/-- pem.py:16-19 `dict(map(lambda x: (x[1], x[0]), enumerate(...)))`: the association list in
insertion order, positions counted from `i`. -/
def enumerateKeys (i : Nat) : List Text → List (Text × Nat)
  | [] => []
  | k :: ks => (k, i) :: enumerateKeys (i + 1) ks

/-- Python dictionary lookup in a dictionary built from a list of pairs: the last pair with that
key counts. -/
def dictGet (k : Text) : List (Text × Nat) → Option Nat
  | [] => none
  | (k', v) :: rest =>
    match dictGet k rest with
    | some w => some w
    | none => if k' = k then some v else none

/-- pem.py:16-17 -/
def startMarkers (markers : List (Text × Text)) : List (Text × Nat) :=
  enumerateKeys 0 (markers.map (·.1))

/-- pem.py:18-19 -/
def stopMarkers (markers : List (Text × Text)) : List (Text × Nat) :=
  enumerateKeys 0 (markers.map (·.2))

/-- What `substrate` is when `readPemBlocksFromFile` returns (or fails): the initial `''`
(pem.py:21), a byte string (pem.py:44) or `binascii.Error` propagating from pem.py:44. -/
inductive Substrate
  | emptyStr
  | bytes (b : Bytes)
  | raised
  deriving DecidableEq, Repr

/-- Python truth value of the returned substrate (`if not substrate`); an exception never gets
there. -/
def Substrate.truthy : Substrate → Bool
  | .emptyStr => false
  | .bytes b => !b.isEmpty
  | .raised => true

/-- Return value of `readPemBlocksFromFile` and the text left in the file object. -/
structure Result where
  idx : Int
  substrate : Substrate
  rest : Text
  deriving DecidableEq, Repr

/-- pem.py:44 `''.encode().join([base64.b64decode(x.encode()) for x in certLines])` -/
def dump : List Text → Option Bytes
  | [] => some []
  | x :: xs => do
    let a ← b64decode (encodeUtf8 x)
    let b ← dump xs
    pure (a ++ b)

/-- pem.py:40-45, the `stDump` branch: an exception from `b64decode` propagates. -/
def dumped (certLines : List Text) : Substrate :=
  match dump certLines with
  | some b => .bytes b
  | none => .raised

/-- The text left after `readline` is shorter. -/
theorem readline_length (s : Text) (h : s ≠ []) : (readline s).2.length < s.length := by
  induction s with
  | nil => exact absurd rfl h
  | cons c s ih =>
    unfold readline
    split
    · simp
    · by_cases hs : s = []
      · subst hs; simp [readline]
      · have := ih hs; simp; omega

theorem readline_nil_iff (s : Text) : (readline s).1 = [] ↔ s = [] := by
  cases s with
  | nil => simp [readline]
  | cons c s => unfold readline; split <;> simp

/-- pem.py:24-45, the `while True` loop, with `state`, `idx` and `certLines` (in order).  -/
def loop (starts stops : List (Text × Nat)) (state : State) (idx : Int) (certLines : List Text)
    (file : Text) : Result :=
  if h : (readline file).1 = [] then
    -- pem.py:26-27 `if not certLine: break`
    { idx := idx, substrate := .emptyStr, rest := file }
  else
    have : (readline file).2.length < file.length :=
      readline_length file (fun e => h ((readline_nil_iff file).2 e))
    -- pem.py:28
    let certLine := strip (readline file).1
    match state with
    | .spam =>
      -- pem.py:29-34
      match dictGet certLine starts with
      | some i => loop starts stops .ham i [] (readline file).2
      | none => loop starts stops .spam idx certLines (readline file).2
    | .ham =>
      -- pem.py:35-45
      if (dictGet certLine stops).map Int.ofNat = some idx then
        { idx := idx,
          substrate := dumped certLines,
          rest := (readline file).2 }
      else loop starts stops .ham idx (certLines ++ [certLine]) (readline file).2
termination_by file.length

/-- pem.py:15-46 `readPemBlocksFromFile(fileObj, *markers)` -/
def readPemBlocksFromFile (file : Text) (markers : List (Text × Text)) : Result :=
  loop (startMarkers markers) (stopMarkers markers) .spam (-1) [] file

/-- pem.py:51 default start marker -/
def defaultStart : Text := "-----BEGIN CERTIFICATE-----".toList
/-- pem.py:52 default end marker -/
def defaultEnd : Text := "-----END CERTIFICATE-----".toList

/-- pem.py:50-54 `readPemFromFile(fileObj, startMarker, endMarker)` -/
def readPemFromFile (file : Text) (startMarker : Text := defaultStart)
    (endMarker : Text := defaultEnd) : Substrate :=
  (readPemBlocksFromFile file [(startMarker, endMarker)]).substrate

/-- pem.py:57-61 `readBase64fromText(text)`; `none` is an exception. -/
def readBase64fromText (text : Text) : Option Bytes := b64decode (encodeUtf8 text)

/-- pem.py:64-65 `readBase64FromFile(fileObj)`: `fileObj.read()` is all the remaining text. -/
def readBase64FromFile (file : Text) : Option Bytes := readBase64fromText file

end Verif.Pem
