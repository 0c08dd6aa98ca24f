/-!
# Text files: specification

What opening a file in text mode does to line ends, and the files on which two interpreters agree.
-/

namespace Verif.Spec

/-- Universal newlines: `\r\n` and `\r` become `\n`. -/
def universalNewlines : List Char → List Char
  | [] => []
  | '\r' :: '\n' :: s => '\n' :: universalNewlines s
  | '\r' :: s => '\n' :: universalNewlines s
  | c :: s => c :: universalNewlines s

/-- Blank characters of the C locale: tab, line feed, vertical tab, form feed, carriage return,
space. -/
def asciiBlank (c : Char) : Bool := c ∈ ['\t', '\n', '\x0b', '\x0c', '\r', ' ']

/-- A carriage return is followed by a line feed or ends the file. -/
def CrLf (s : List Char) : Prop :=
  ∀ a b, s = a ++ '\r' :: b → b = [] ∨ b.head? = some '\n'

end Verif.Spec
