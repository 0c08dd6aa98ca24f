import Verif.Asn1.Open
import Verif.Spec.Bundle

/-!
# Files with objects that have typed contents

What C82 says: the files of C75, with objects that hold objects in their open type fields; and the program that reads them
with `pem.readPemBlocksFromFile` and a decoder with open types.
-/

namespace Verif.Bundle

open Asn1 Spec
open Pem hiding Bytes

/-- An object in a file: the number of its kind, the object, the lines of notes before it and a quarter of the width of its
base64 lines. -/
structure OItem where
  kind : Nat
  value : OVal
  notes : List Text
  quads : Nat

/-- The lines of an object, given its encoding. -/
def olinesOf (k : Kind) (it : OItem) (b : Bytes) : List Text :=
  it.notes ++ k.start :: wrap (4 * it.quads) (base64 b) ++ [k.stop]

/-- The text of a file; `none` if some object has a kind that is not listed or no encoding. -/
def otext (kinds : List Kind) : List OItem → Option Text
  | [] => some []
  | it :: its =>
    match kinds[it.kind]? with
    | none => none
    | some k =>
      match oencode k.ty it.value, otext kinds its with
      | some b, some t => some (unlines (olinesOf k it b) ++ t)
      | _, _ => none

/-- The program of `readAll` (tools/pkcs1dump.py:28-44) with another decoder, such as one with `decodeOpenTypes=True`. -/
def readAllBy (dec : Ty → Bytes → Option (OVal × Bytes)) (kinds : List Kind) : Nat → Text → Option (List (Nat × OVal) × End)
  | 0, _ => none
  | n + 1, file =>
    let r := readPemBlocksFromFile file (markers kinds)
    match r.substrate with
    | .emptyStr => some ([], .done)
    | .bytes [] => some ([], .done)
    | .raised => some ([], .badBase64)
    | .bytes b =>
      match kinds[r.idx.toNat]? with
      | none => some ([], .badDer)
      | some k =>
        match dec k.ty b with
        | none => some ([], .badDer)
        | some (v, _) => (readAllBy dec kinds n r.rest).map (fun p => ((r.idx.toNat, v) :: p.1, p.2))

/-- The objects read are those of the file, in order: of the same kinds, and with values as `P` says. -/
def oback (P : Ty → OVal → OVal → Prop) (kinds : List Kind) : List OItem → List (Nat × OVal) → Prop
  | [], [] => True
  | it :: its, (i, w) :: rs =>
    i = it.kind ∧ (∃ k, kinds[i]? = some k ∧ P k.ty it.value w) ∧ oback P kinds its rs
  | _, _ => False

end Verif.Bundle
