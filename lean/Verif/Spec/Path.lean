import Verif.Asn1.Types

/-!
# Parts of a value, named as in ASN.1

Where a field is in a message is said with the names of the ASN.1 module, as a reader of the
standard would, not with positions in the model's values.
-/

namespace Verif
namespace Spec

open Asn1

/-- One step into a value: a named component, a named alternative, an element. -/
inductive Step where
  | field (name : String)
  | alternative (name : String)
  | element (i : Nat)

/-- The component called `n`. -/
def fieldAt (n : String) : Comps → Vals → Option (Ty × Val)
  | .cons f t cs, .cons v vs => if f.name = n then some (t, v) else fieldAt n cs vs
  | _, _ => none

/-- The type of alternative `i`, if it is called `n`. -/
def altAt (n : String) : Comps → Nat → Option Ty
  | .cons f t _, 0 => if f.name = n then some t else none
  | .cons _ _ cs, i + 1 => altAt n cs i
  | .nil, _ => none

def elementAt : Vals → Nat → Option Val
  | .cons v _, 0 => some v
  | .cons _ vs, i + 1 => elementAt vs i
  | .nil, _ => none

/-- The part of a value of type `t` at the end of a path; `none` if there is none. -/
def look : List Step → Ty → Val → Option Val
  | [], _, v => some v
  | .field n :: p, .seq _ _ cs, .record vs =>
    match fieldAt n cs vs with
    | some (u, w) => look p u w
    | none => none
  | .alternative n :: p, .choice _ cs, .alt i v =>
    match altAt n cs i with
    | some u => look p u v
    | none => none
  | .element i :: p, .of _ _ u, .list vs =>
    match elementAt vs i with
    | some w => look p u w
    | none => none
  | _, _, _ => none

end Spec
end Verif
