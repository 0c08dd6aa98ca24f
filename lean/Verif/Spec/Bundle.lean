import Verif.Asn1.Codec
import Verif.Spec.Asn1
import Verif.Pem.Model
import Verif.Spec.Pem

/-!
# Files with many objects

What C75 says: a file written by any program that puts the DER encodings of objects of several classes in base64 between
marker lines, with notes in between; and the program that reads it with `pem.readPemBlocksFromFile` and the DER decoder.
-/

namespace Verif.Bundle

open Asn1 Spec
open Pem hiding Bytes

/-- A kind of object: its marker lines and its class. -/
structure Kind where
  start : Text
  stop : Text
  ty : Ty

/-- An object in a file: the number of its kind, its value, the lines of notes before it and a quarter of the width of its
base64 lines. -/
structure Item where
  kind : Nat
  value : Val
  notes : List Text
  quads : Nat

/-- The marker pairs given to the reader. -/
def markers (kinds : List Kind) : List (Text × Text) := kinds.map (fun k => (k.start, k.stop))

/-- The lines of an object, given its DER encoding. -/
def linesOf (k : Kind) (it : Item) (b : Bytes) : List Text :=
  it.notes ++ k.start :: wrap (4 * it.quads) (base64 b) ++ [k.stop]

/-- The text of a file; `none` if some object has a kind that is not listed or no encoding. -/
def text (kinds : List Kind) : List Item → Option Text
  | [] => some []
  | it :: its =>
    match kinds[it.kind]? with
    | none => none
    | some k =>
      match encode k.ty it.value, text kinds its with
      | some b, some t => some (unlines (linesOf k it b) ++ t)
      | _, _ => none

/-- How reading a file ends: no more blocks, a line that is not base64, or octets the class does not read. -/
inductive End
  | done
  | badBase64
  | badDer
  deriving DecidableEq, Repr

/-- A program reading the file, as tools/pkcs1dump.py:28-44 does: it reads a block, ends if there is none or
it is empty, decodes it with the class of its marker, and goes on with what is left of the file.  Objects read, with the
numbers of their kinds, and how it ended.  `none` if `n` blocks do not suffice. -/
def readAll (kinds : List Kind) : Nat → Text → Option (List (Nat × Val) × End)
  | 0, _ => none
  | n + 1, file =>
    let r := readPemBlocksFromFile file (markers kinds)
    match r.substrate with
    | .emptyStr => some ([], .done)
    | .bytes [] => some ([], .done)
    | .raised => some ([], .badBase64)
    | .bytes b =>
      match kinds[r.idx.toNat]? with
      | none => some ([], .badDer)
      | some k =>
        match decode k.ty b with
        | none => some ([], .badDer)
        | some (v, _) => (readAll kinds n r.rest).map (fun p => ((r.idx.toNat, v) :: p.1, p.2))

/-- The objects read are those of the file, in order: of the same kinds, with equal values. -/
def back (kinds : List Kind) : List Item → List (Nat × Val) → Prop
  | [], [] => True
  | it :: its, (i, w) :: rs =>
    i = it.kind ∧ (∃ k, kinds[i]? = some k ∧ k.ty.same false it.value w) ∧ back kinds its rs
  | _, _ => False

end Verif.Bundle
