import Verif.Asn1.Assign

/-!
# Objects that are shared

pyasn1 does not copy an object that is assigned (`type/univ.py`, `setComponentByPosition`: `self._componentValues[idx] =
value`), nor one that is read (`getComponentByPosition` returns what is stored).  So an object can be a component of several
others, and of one held by a variable elsewhere; modules of the package do this themselves (rfc4055.py:82-100: `sha1Identifier` is
a component of `mgf1SHA1Identifier`).  Here objects have addresses, and components are addresses.

`read` of a component that is not there creates it and stores it; `encode` creates components in the same way (C59), so that it
is a sequence of reads.  `x[name] = 5` makes an object of the component's class and assigns it.  A call that raises changes
nothing.
-/

namespace Verif
namespace Asn1

/-- An object in memory: its class, the value of a simple one, its components. -/
structure Cell where
  ty : Ty
  val : Option Val
  kids : List (Option Nat)

/-- Memory: objects by address. -/
abbrev Heap := List Cell

def Cell.kid (c : Cell) (i : Nat) : Option Nat := (c.kids[i]?).join

/-- The component at `i` of the object at `x`. -/
def Heap.kid (h : Heap) (x i : Nat) : Option Nat := (h[x]?).bind (fun c => c.kid i)

/-- `_componentValues[i] = y` -/
def putKid : List (Option Nat) → Nat → Nat → List (Option Nat)
  | [], 0, y => [some y]
  | _ :: ks, 0, y => some y :: ks
  | [], i + 1, y => none :: putKid [] i y
  | k :: ks, i + 1, y => k :: putKid ks i y

/-- A CHOICE holds one alternative only. -/
def Cell.put (c : Cell) (i y : Nat) : Cell :=
  match c.ty with
  | .choice .. => { c with kids := putKid [] i y }
  | _ => { c with kids := putKid c.kids i y }

def Heap.put (h : Heap) (x i y : Nat) : Heap := h.modify x (fun c => c.put i y)

/-- `x.clear()` -/
def Heap.clear (h : Heap) (x : Nat) : Heap := h.modify x (fun c => { c with kids := [] })

mutual
/-- What an object looks like, with its components: nothing in it says which objects are the same. -/
inductive Tree where
  | node (ty : Ty) (val : Option Val) (kids : Kids)
inductive Kids where
  | nil
  | gap (ks : Kids)
  | put (t : Tree) (ks : Kids)
end

mutual
/-- Make new objects. -/
def allocate : Tree → Heap → Heap × Nat
  | .node t v ks, h =>
    let r := allocateAll ks h
    (r.1 ++ [⟨t, v, r.2⟩], r.1.length)
def allocateAll : Kids → Heap → Heap × List (Option Nat)
  | .nil, h => (h, [])
  | .gap ks, h =>
    let r := allocateAll ks h
    (r.1, none :: r.2)
  | .put t ks, h =>
    let r := allocate t h
    let q := allocateAll ks r.1
    (q.1, some r.2 :: q.2)
end

/-- `X()` -/
def Tree.fresh (t : Ty) : Tree := .node t none .nil

def Kids.at : Nat → Tree → Kids
  | 0, t => .put t .nil
  | i + 1, t => .gap (Kids.at i t)

mutual
/-- An object of the class that holds the value, as `decode` makes it: a component that is not in the input is not stored. -/
def Tree.ofVal : Ty → Val → Tree
  | .seq s a cs, .record vs => .node (.seq s a cs) none (Kids.ofVals cs vs)
  | .of s a t, .list vs => .node (.of s a t) none (Kids.ofList (Tree.ofVal t) vs)
  | .choice a cs, .alt i v => .node (.choice a cs) none (Kids.ofAlt cs i v)
  | t, v => .node t (some v) .nil
def Kids.ofVals : Comps → Vals → Kids
  | .cons f t cs, .cons v vs =>
    if f.mode.missing = some v then .gap (Kids.ofVals cs vs) else .put (Tree.ofVal t v) (Kids.ofVals cs vs)
  | _, _ => .nil
def Kids.ofAlt : Comps → Nat → Val → Kids
  | .cons _ t _, 0, v => .put (Tree.ofVal t v) .nil
  | .cons _ _ cs, i + 1, v => .gap (Kids.ofAlt cs i v)
  | .nil, _, _ => .nil
def Kids.ofList (f : Val → Tree) : Vals → Kids
  | .nil => .nil
  | .cons v vs => .put (f v) (Kids.ofList f vs)
end

/-- What is created when component `i`, which is not there, is read: a copy of the DEFAULT, or an object without a value. -/
def Cell.initial (c : Cell) (i : Nat) : Option Tree :=
  let comp (cs : Comps) := (cs.get? i).map (fun (f, t) => match f.mode with
    | .dflt v => if v = .absent then .fresh t else Tree.ofVal t v
    | _ => .fresh t)
  match c.ty with
  | .seq _ _ cs => comp cs
  | .choice _ cs => comp cs
  | .of _ _ t => if i = c.kids.length then some (.fresh t) else none
  | _ => none

/-- Whether `x[i] = y` (`x.append(y)`) accepts an object of class `u`. -/
def Cell.accepts (c : Cell) (i : Nat) (u : Ty) : Bool :=
  match c.ty with
  | .seq _ _ cs | .choice _ cs => match cs.get? i with
    | some (f, t) => f.accepts t u
    | none => false
  | .of _ _ t => decide (i ≤ c.kids.length) && elementAccepts t u
  | _ => false

end Asn1
end Verif
