import Verif.Spec.Der

/-!
# Values that differ in one place, and octets that do

What a user does who decodes a message, changes, adds or removes something in it, and encodes it again.
-/

namespace Verif
namespace Change

open Asn1 Der

/-- What is written for a component: nothing if it is absent or equal to its default (X.690 11.5). -/
def written (f : Field) (v : Val) : Option Val := if v = .absent ∨ f.mode = .dflt v then none else some v

/-- `Differ moved t v v' s o o'`: the values `v` and `v'` of type `t` are the same but for one place in them.  Its type is
`s`, `o` is what is there in `v`, `o'` is what is there in `v'` (`none`: nothing is written there).  `moved` is true if the
place may be inside a SET or SET OF. -/
inductive Differ (moved : Bool) : Ty → Val → Val → Ty → Option Val → Option Val → Prop
  /-- The whole. -/
  | here (t : Ty) (v v' : Val) : Differ moved t v v' t (some v) (some v')
  /-- A component of a SEQUENCE or SET. -/
  | field (isSet : Bool) (a : Attrs) (cs : Comps) (vs vs' : Vals) (fs gs : List (Field × Ty)) (f : Field) (t : Ty)
      (us ws : List Val) (x x' : Val) : (isSet = true → moved = true) → cs.toList = fs ++ (f, t) :: gs →
      vs.toList = us ++ x :: ws → vs'.toList = us ++ x' :: ws → us.length = fs.length →
      Differ moved (.seq isSet a cs) (.record vs) (.record vs') t (written f x) (written f x')
  /-- Inside a component that is there. -/
  | inField (isSet : Bool) (a : Attrs) (cs : Comps) (vs vs' : Vals) (fs gs : List (Field × Ty)) (f : Field) (t : Ty)
      (us ws : List Val) (x x' : Val) (s : Ty) (o o' : Option Val) : (isSet = true → moved = true) →
      cs.toList = fs ++ (f, t) :: gs → vs.toList = us ++ x :: ws → vs'.toList = us ++ x' :: ws → us.length = fs.length →
      written f x = some x → written f x' = some x' → Differ moved t x x' s o o' →
      Differ moved (.seq isSet a cs) (.record vs) (.record vs') s o o'
  /-- An element of a SEQUENCE OF or SET OF; with `none` it is added or removed. -/
  | element (isSet : Bool) (a : Attrs) (t : Ty) (vs vs' : Vals) (us ws : List Val) (o o' : Option Val) :
      (isSet = true → moved = true) → vs.toList = us ++ (o.toList ++ ws) → vs'.toList = us ++ (o'.toList ++ ws) →
      Differ moved (.of isSet a t) (.list vs) (.list vs') t o o'
  /-- Inside an element. -/
  | inElement (isSet : Bool) (a : Attrs) (t : Ty) (vs vs' : Vals) (us ws : List Val) (x x' : Val) (s : Ty) (o o' : Option Val) :
      (isSet = true → moved = true) → vs.toList = us ++ x :: ws → vs'.toList = us ++ x' :: ws → Differ moved t x x' s o o' →
      Differ moved (.of isSet a t) (.list vs) (.list vs') s o o'
  /-- Inside the alternative that is chosen. -/
  | inAlternative (a : Attrs) (cs : Comps) (fs gs : List (Field × Ty)) (f : Field) (t : Ty) (x x' : Val) (s : Ty)
      (o o' : Option Val) : cs.toList = fs ++ (f, t) :: gs → Differ moved t x x' s o o' →
      Differ moved (.choice a cs) (.alt fs.length x) (.alt fs.length x') s o o'

/-- `Changed moved e e' b b'`: `b'` comes from `b` by putting `e'` in the place of `e` and adjusting the lengths of what is
around it.  Nothing else changes; with `moved`, the elements next to it may be on the other side. -/
inductive Changed (moved : Bool) (e e' : Octets) : Octets → Octets → Prop
  | here : Changed moved e e' e e'
  /-- Between other elements. -/
  | between (c c' : Octets) (ps qs ps' qs' : List Octets) : Changed moved e e' c c' → ps ++ qs = ps' ++ qs' →
      (moved = false → ps = ps') → Changed moved e e' (ps ++ c :: qs).flatten (ps' ++ c' :: qs').flatten
  /-- Within an element. -/
  | within (c c' : Octets) (cl : Cls) (k : Bool) (n : Nat) (i l l' : Octets) : Changed moved e e' c c' → Identifier cl k n i →
      Length c.length l → Length c'.length l' → Changed moved e e' (i ++ l ++ c) (i ++ l' ++ c')
  /-- Within an element that is left out if it is empty: before or after the change. -/
  | fill (c' : Octets) (cl : Cls) (k : Bool) (n : Nat) (i l' : Octets) : Changed moved e e' [] c' → c' ≠ [] →
      Identifier cl k n i → Length c'.length l' → Changed moved e e' [] (i ++ l' ++ c')
  | drain (c : Octets) (cl : Cls) (k : Bool) (n : Nat) (i l : Octets) : Changed moved e e' c [] → c ≠ [] →
      Identifier cl k n i → Length c.length l → Changed moved e e' (i ++ l ++ c) []

end Change
end Verif
