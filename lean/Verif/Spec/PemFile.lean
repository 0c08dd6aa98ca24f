import Verif.Spec.Pem

/-!
# What a file of armored blocks is

The outcome of reading one block from any text whatever, in terms of its lines, written without reference to the
model in `Verif/Pem`.
-/

namespace Verif.Spec

abbrev Line := List Char

/-- White space of Python's `str.strip`. -/
def White (c : Char) : Prop :=
  c.toNat ∈ [0x09, 0x0a, 0x0b, 0x0c, 0x0d, 0x1c, 0x1d, 0x1e, 0x1f, 0x20, 0x85, 0xa0, 0x1680, 0x2000, 0x2001, 0x2002, 0x2003, 0x2004,
    0x2005, 0x2006, 0x2007, 0x2008, 0x2009, 0x200a, 0x2028, 0x2029, 0x202f, 0x205f, 0x3000]

instance (c : Char) : Decidable (White c) := inferInstanceAs (Decidable (_ ∈ _))

/-- The lines of a text; a newline at the very end does not begin another line. -/
def linesOf : List Char → List Line
  | [] => []
  | c :: s => if c = '\n' then [] :: linesOf s else
    match linesOf s with
    | [] => [[c]]
    | l :: ls => (c :: l) :: ls

/-- `m` is `l` without the white space around it. -/
def Trimmed (l m : Line) : Prop :=
  ∃ a b, l = a ++ m ++ b ∧ (∀ c ∈ a, White c) ∧ (∀ c ∈ b, White c) ∧
    (∀ c, m.head? = some c → ¬ White c) ∧ ∀ c, m.getLast? = some c → ¬ White c

/-- The line is marker number `i` and no later one. -/
def Marks (markers : List Line) (l : Line) (i : Nat) : Prop :=
  ∃ m, Trimmed l m ∧ markers[i]? = some m ∧ ∀ j, i < j → markers[j]? ≠ some m

/-- Lines of base64 text, each complete in itself, and the octets they stand for. -/
inductive Body : List Line → List UInt8 → Prop
  | nil : Body [] []
  | cons {l : Line} {ls : List Line} {a b : List UInt8} :
      Lenient (l.filter (fun c => alphabet.contains c || c == '=')) a → Body ls b → Body (l :: ls) (a ++ b)

/-- Reading a block from lines: its number, its body, and the lines left to read.  No number: there is no block.  No body: the
block does not end. -/
inductive Reading (starts stops : List Line) : List Line → Option Nat → Option (List Line) → List Line → Prop
  | nothing (ls : List Line) : (∀ l ∈ ls, ∀ i, ¬ Marks starts l i) → Reading starts stops ls none none []
  | unended (pre : List Line) (s : Line) (body : List Line) (i : Nat) : (∀ l ∈ pre, ∀ j, ¬ Marks starts l j) → Marks starts s i →
      (∀ l ∈ body, ¬ Marks stops l i) → Reading starts stops (pre ++ s :: body) (some i) none []
  | block (pre : List Line) (s : Line) (body : List Line) (e : Line) (post : List Line) (i : Nat) :
      (∀ l ∈ pre, ∀ j, ¬ Marks starts l j) → Marks starts s i → (∀ l ∈ body, ¬ Marks stops l i) → Marks stops e i →
      Reading starts stops (pre ++ s :: (body ++ e :: post)) (some i) (some body) post

end Verif.Spec
