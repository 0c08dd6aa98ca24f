/-!
# Independent vocabulary for the statements about PEM

Standard base64 (RFC 4648) text, line wrapping and text files as sequences of lines, written
without reference to the model in `Verif/Pem`.
-/

namespace Verif.Spec

/-- The base64 alphabet of RFC 4648. -/
def alphabet : List Char := "ABCDEFGHIJKLMNOPQRSTUVWXYZabcdefghijklmnopqrstuvwxyz0123456789+/".toList

/-- The digit for a six-bit value. -/
def digit (n : Nat) : Char := alphabet.getD n 'A'

/-- Standard base64 encoding with padding (RFC 4648 section 4). -/
def base64 : List UInt8 → List Char
  | [] => []
  | [a] =>
    let n := a.toNat * 65536
    [digit (n / 262144), digit (n / 4096 % 64), '=', '=']
  | [a, b] =>
    let n := a.toNat * 65536 + b.toNat * 256
    [digit (n / 262144), digit (n / 4096 % 64), digit (n / 64 % 64), '=']
  | a :: b :: c :: rest =>
    let n := a.toNat * 65536 + b.toNat * 256 + c.toNat
    digit (n / 262144) :: digit (n / 4096 % 64) :: digit (n / 64 % 64) :: digit (n % 64) ::
      base64 rest

/-- The text (without foreign characters) means these octets to a lenient reader: groups of four digits, the last
one possibly cut short by padding.  After that padding anything may follow; the bits a cut group has too many are not
looked at.  Padding characters count only where they end a group: they are skipped before the first and second
digit of a group, and a single one is skipped before the third. -/
inductive Lenient : List Char → List UInt8 → Prop
  | done (n : Nat) : Lenient (List.replicate n '=') []
  | group (n m p v1 v2 v3 v4 : Nat) (rest : List Char) (bs : List UInt8) : p ≤ 1 → v1 < 64 → v2 < 64 → v3 < 64 → v4 < 64 →
      Lenient rest bs →
      Lenient (List.replicate n '=' ++ digit v1 :: (List.replicate m '=' ++ digit v2 :: (List.replicate p '=' ++
          digit v3 :: digit v4 :: rest)))
        (UInt8.ofNat ((v1 * 64 + v2) / 16) :: UInt8.ofNat ((v1 * 4096 + v2 * 64 + v3) / 4 % 256) ::
          UInt8.ofNat ((v1 * 262144 + v2 * 4096 + v3 * 64 + v4) % 256) :: bs)
  | one (n m v1 v2 : Nat) (after : List Char) : v1 < 64 → v2 < 64 →
      Lenient (List.replicate n '=' ++ digit v1 :: (List.replicate m '=' ++ digit v2 :: '=' :: '=' :: after))
        [UInt8.ofNat ((v1 * 64 + v2) / 16)]
  | two (n m p v1 v2 v3 : Nat) (after : List Char) : p ≤ 1 → v1 < 64 → v2 < 64 → v3 < 64 →
      Lenient (List.replicate n '=' ++ digit v1 :: (List.replicate m '=' ++ digit v2 :: (List.replicate p '=' ++
          digit v3 :: '=' :: after)))
        [UInt8.ofNat ((v1 * 64 + v2) / 16), UInt8.ofNat ((v1 * 4096 + v2 * 64 + v3) / 4 % 256)]

/-- Cut a text into lines of `w` characters (the last one may be shorter). -/
def wrap (w : Nat) (s : List Char) : List (List Char) :=
  if h : w = 0 ∨ s = [] then [] else s.take w :: wrap w (s.drop w)
termination_by s.length
decreasing_by
  have : s.length ≠ 0 := by intro e; exact h (Or.inr (List.eq_nil_of_length_eq_zero e))
  simp only [List.length_drop]; omega

/-- A text file with the given lines, each ended by a newline. -/
def unlines (ls : List (List Char)) : List Char := ls.flatMap (· ++ ['\n'])

/-- A line of text: no newline inside. -/
def IsLine (l : List Char) : Prop := '\n' ∉ l

instance (l : List Char) : Decidable (IsLine l) := inferInstanceAs (Decidable ('\n' ∉ l))

end Verif.Spec
