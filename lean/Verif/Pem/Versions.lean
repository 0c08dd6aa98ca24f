import Verif.Pem.Model

/-!
# `pem.py` on byte strings

`/repo/pyasn1_modules/pem.py` branches on `sys.version_info[0] <= 2` (pem.py:41 and 58).  Under
Python 2 a file object returns byte strings, markers are byte strings, and `base64.b64decode` is
applied to them without `.encode()`.  Under Python 3 a file opened in binary mode returns byte
strings too, but the `else` branches call `.encode()` on them, which byte strings do not have.

`str.strip` (Python 2, C locale), `bytes.strip` (Python 3), `readline` and Python 2's
`binascii.a2b_base64` belong to CPython and are modelled as the environment.
-/

namespace Verif.Pem.Octets

/-! ## Environment -/

/-- `isspace()` of a byte in the C locale. -/
def isSpace (b : UInt8) : Bool := (9 ≤ b.toNat && b.toNat ≤ 13) || b.toNat == 32

/-- `strip()` of a byte string. -/
def strip (s : Bytes) : Bytes :=
  ((s.dropWhile isSpace).reverse.dropWhile isSpace).reverse

/-- `readline()` of a file of bytes. -/
def readline : Bytes → Bytes × Bytes
  | [] => ([], [])
  | c :: s => if c = 10 then ([10], s) else
      let r := readline s
      (c :: r.1, r.2)

/-- `binascii_find_valid(ascii_data, ascii_len, 1)` of CPython 2.7's `binascii.c`, called with
`ascii_data` pointing to a padding character: the first character after it that is in the base64
alphabet or the padding character. -/
def nextValid : Bytes → Option UInt8
  | [] => none
  | b :: s => if b.toNat = 61 ∨ (a2bTable b).isSome then some b else nextValid s

/-- CPython 2.7 `binascii.a2b_base64`: `q` = quad_pos, `left` = leftchar, `bits` = leftbits.
`none` means `binascii.Error` is raised (which `base64.b64decode` turns into `TypeError`). -/
def a2b (q left bits : Nat) : Bytes → Option Bytes
  | [] => if bits = 0 then some [] else none
  | ch :: rest =>
    if ch.toNat = 61 then
      if q < 2 ∨ (q = 2 ∧ (nextValid rest).map UInt8.toNat ≠ some 61) then a2b q left bits rest
      else some []
    else match a2bTable ch with
      | none => a2b q left bits rest
      | some v =>
        if bits + 6 ≥ 8 then
          (a2b ((q + 1) % 4) ((left * 64 + v) % 2 ^ (bits + 6 - 8)) (bits + 6 - 8) rest).map
            (UInt8.ofNat ((left * 64 + v) / 2 ^ (bits + 6 - 8)) :: ·)
        else a2b ((q + 1) % 4) (left * 64 + v) (bits + 6) rest

/-- `base64.b64decode(s)` under Python 2. -/
def b64decode (s : Bytes) : Option Bytes := a2b 0 0 0 s

/-! ## pem.py -/

/-- pem.py:16-19, byte string keys. -/
def enumerateKeys (i : Nat) : List Bytes → List (Bytes × Nat)
  | [] => []
  | k :: ks => (k, i) :: enumerateKeys (i + 1) ks

/-- Dictionary lookup: the last pair with that key counts. -/
def dictGet (k : Bytes) : List (Bytes × Nat) → Option Nat
  | [] => none
  | (k', v) :: rest =>
    match dictGet k rest with
    | some w => some w
    | none => if k' = k then some v else none

/-- Return value and the bytes left in the file object. -/
structure Result where
  idx : Int
  substrate : Substrate
  rest : Bytes
  deriving DecidableEq, Repr

/-- pem.py:42 `''.join([base64.b64decode(x) for x in certLines])` (`line` is
`base64.b64decode`) or pem.py:44 `''.encode().join([base64.b64decode(x.encode()) …])` (`line`
raises). -/
def dump (line : Bytes → Option Bytes) : List Bytes → Option Bytes
  | [] => some []
  | x :: xs => do
    let a ← line x
    let b ← dump line xs
    pure (a ++ b)

/-- pem.py:40-45 -/
def dumped (line : Bytes → Option Bytes) (certLines : List Bytes) : Substrate :=
  match dump line certLines with
  | some b => .bytes b
  | none => .raised

theorem readline_length (s : Bytes) (h : s ≠ []) : (readline s).2.length < s.length := by
  induction s with
  | nil => exact absurd rfl h
  | cons c s ih =>
    unfold readline
    split
    · simp
    · by_cases hs : s = []
      · subst hs; simp [readline]
      · have := ih hs; simp; omega

theorem readline_nil_iff (s : Bytes) : (readline s).1 = [] ↔ s = [] := by
  cases s with
  | nil => simp [readline]
  | cons c s => unfold readline; split <;> simp

/-- pem.py:24-45, the `while True` loop. -/
def loop (line : Bytes → Option Bytes) (starts stops : List (Bytes × Nat)) (state : State)
    (idx : Int) (certLines : List Bytes) (file : Bytes) : Result :=
  if h : (readline file).1 = [] then
    -- pem.py:26-27
    { idx := idx, substrate := .emptyStr, rest := file }
  else
    have : (readline file).2.length < file.length :=
      readline_length file (fun e => h ((readline_nil_iff file).2 e))
    -- pem.py:28
    let certLine := strip (readline file).1
    match state with
    | .spam =>
      -- pem.py:29-34
      match dictGet certLine starts with
      | some i => loop line starts stops .ham i [] (readline file).2
      | none => loop line starts stops .spam idx certLines (readline file).2
    | .ham =>
      -- pem.py:35-45
      if (dictGet certLine stops).map Int.ofNat = some idx then
        { idx := idx,
          substrate := dumped line certLines,
          rest := (readline file).2 }
      else loop line starts stops .ham idx (certLines ++ [certLine]) (readline file).2
termination_by file.length

/-- pem.py:15-46 under Python 2: file and markers are byte strings. -/
def readPemBlocksFromFile (file : Bytes) (markers : List (Bytes × Bytes)) : Result :=
  loop b64decode (enumerateKeys 0 (markers.map (·.1))) (enumerateKeys 0 (markers.map (·.2)))
    .spam (-1) [] file

/-- Under Python 2 `''` (pem.py:21) is the empty byte string: what the caller gets; `none` is an
exception. -/
def returned : Substrate → Option Bytes
  | .emptyStr => some []
  | .bytes b => some b
  | .raised => none

/-- pem.py:50-54 under Python 2, with the default markers as byte strings. -/
def readPemFromFile (file : Bytes) (startMarker : Bytes := encodeUtf8 defaultStart)
    (endMarker : Bytes := encodeUtf8 defaultEnd) : Option Bytes :=
  returned (readPemBlocksFromFile file [(startMarker, endMarker)]).substrate

/-- pem.py:57-59 under Python 2 -/
def readBase64fromText (text : Bytes) : Option Bytes := b64decode text

/-- pem.py:64-65 under Python 2 -/
def readBase64FromFile (file : Bytes) : Option Bytes := readBase64fromText file

/-! ## Python 3, file opened in binary mode -/

/-- `x.encode()` of a byte string: `AttributeError`. -/
def noEncode (_ : Bytes) : Option Bytes := none

/-- pem.py:15-46 under Python 3, binary file, markers given as byte strings. -/
def readPemBlocksFromBinary (file : Bytes) (markers : List (Bytes × Bytes)) : Result :=
  loop noEncode (enumerateKeys 0 (markers.map (·.1))) (enumerateKeys 0 (markers.map (·.2)))
    .spam (-1) [] file

/-- pem.py:15-46 under Python 3, binary file, markers given as text (as the default markers of
`readPemFromFile` are): a byte string is never equal to a text, so `certLine in startMarkers` is
false whatever the markers are. -/
def readPemBlocksFromBinaryText (file : Bytes) (_markers : List (Text × Text)) : Result :=
  loop noEncode [] [] .spam (-1) [] file

end Verif.Pem.Octets
