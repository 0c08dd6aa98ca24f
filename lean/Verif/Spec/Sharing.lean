import Verif.Asn1.Heap

/-!
# Shared objects: specification

What an object in memory looks like (`Shows`), which objects can be reached from it (`Reach`), and what a program that holds some
objects can do (`Step`).
-/

namespace Verif
namespace Asn1

mutual
/-- The object at an address, with its components, looks like this tree. -/
inductive Shows (h : Heap) : Nat → Tree → Prop
  | node (a : Nat) (c : Cell) (ks : Kids) : h[a]? = some c → ShowsKids h c.kids ks → Shows h a (.node c.ty c.val ks)
inductive ShowsKids (h : Heap) : List (Option Nat) → Kids → Prop
  | nil : ShowsKids h [] .nil
  | gap (as : List (Option Nat)) (ks : Kids) : ShowsKids h as ks → ShowsKids h (none :: as) (.gap ks)
  | put (a : Nat) (t : Tree) (as : List (Option Nat)) (ks : Kids) : Shows h a t → ShowsKids h as ks →
      ShowsKids h (some a :: as) (.put t ks)
end

/-- `b` is `a`, or a component of it, or a component of a component, and so on. -/
inductive Reach (h : Heap) : Nat → Nat → Prop
  | refl (a : Nat) : Reach h a a
  | step (a b c : Nat) : some b ∈ ((h[a]?).map Cell.kids).getD [] → Reach h b c → Reach h a c

/-- Components are objects in memory. -/
def Heap.Ok (h : Heap) : Prop := ∀ (a : Nat) (c : Cell), h[a]? = some c → ∀ b, some b ∈ c.kids → b < h.length

/-- The objects held are in memory. -/
def Held (h : Heap) (S : List Nat) : Prop := h.Ok ∧ ∀ a ∈ S, a < h.length

/-- Every object looks like a tree. -/
def Heap.Trees (h : Heap) : Prop := ∀ a, a < h.length → ∃ t, Shows h a t

/-- One action of a program that holds the objects `S`: memory and the objects held afterwards. -/
inductive Step : Heap → List Nat → Heap → List Nat → Prop
  /-- `X()`, `X(value)`, `decode(…)`, a copy with copies of all components: new objects, looking like any tree -/
  | new (h : Heap) (S : List Nat) (t : Tree) : Step h S (allocate t h).1 ((allocate t h).2 :: S)
  /-- `x[i]` -/
  | read (h : Heap) (S : List Nat) (x i y : Nat) : x ∈ S → h.kid x i = some y → Step h S h (y :: S)
  /-- `x[i]` of a component that is not there; also done by `encode(x)` -/
  | create (h : Heap) (S : List Nat) (x i : Nat) (c : Cell) (t : Tree) : x ∈ S → h[x]? = some c → c.kid i = none →
      c.initial i = some t → Step h S ((allocate t h).1.put x i (allocate t h).2) ((allocate t h).2 :: S)
  /-- `x[i] = y` -/
  | assign (h : Heap) (S : List Nat) (x i y : Nat) (c d : Cell) : x ∈ S → y ∈ S → h[x]? = some c → h[y]? = some d →
      c.accepts i d.ty = true → Step h S (h.put x i y) S
  /-- `x.clear()` -/
  | clear (h : Heap) (S : List Nat) (x : Nat) : x ∈ S → Step h S (h.clear x) S
  /-- a variable is given up -/
  | drop (h : Heap) (S T : List Nat) : T ⊆ S → Step h S h T

inductive Steps : Heap → List Nat → Heap → List Nat → Prop
  | refl (h : Heap) (S : List Nat) : Steps h S h S
  | step (h : Heap) (S : List Nat) (h' : Heap) (S' : List Nat) (h'' : Heap) (S'' : List Nat) : Step h S h' S' →
      Steps h' S' h'' S'' → Steps h S h'' S''

/-- Nothing that can be reached from `y` can be reached from the objects `S`. -/
def Apart (h : Heap) (S : List Nat) (y : Nat) : Prop := ∀ a ∈ S, ∀ c, Reach h a c → ¬ Reach h y c

/-- Follow a path of components. -/
def Heap.walk (h : Heap) : Nat → List Nat → Option Nat
  | a, [] => some a
  | a, i :: p => (h.kid a i).bind (fun b => h.walk b p)

def Kids.set : Kids → Nat → Tree → Kids
  | .nil, 0, t => .put t .nil
  | .gap ks, 0, t => .put t ks
  | .put _ ks, 0, t => .put t ks
  | .nil, i + 1, t => .gap (Kids.set .nil i t)
  | .gap ks, i + 1, t => .gap (ks.set i t)
  | .put u ks, i + 1, t => .put u (ks.set i t)

/-- The tree with another component `i`: in a CHOICE it replaces whatever there was. -/
def Tree.set : Tree → Nat → Tree → Tree
  | .node (.choice a cs) v _, i, t => .node (.choice a cs) v (Kids.set .nil i t)
  | .node ty v ks, i, t => .node ty v (ks.set i t)

def Kids.get? : Kids → Nat → Option Tree
  | .put t _, 0 => some t
  | .put _ ks, i + 1 => ks.get? i
  | .gap ks, i + 1 => ks.get? i
  | _, _ => none

def Tree.kid : Tree → Nat → Option Tree
  | .node _ _ ks, i => ks.get? i

/-- The part at path `p`. -/
def Tree.at : Tree → List Nat → Option Tree
  | t, [] => some t
  | .node _ _ ks, i :: p => (ks.get? i).bind (fun k => k.at p)
termination_by _ p => p.length

/-- Replace the component `i` of the part at path `p`. -/
def Tree.setAt : Tree → List Nat → Nat → Tree → Option Tree
  | t, [], i, u => some (t.set i u)
  | .node ty v ks, j :: p, i, u => (ks.get? j).bind (fun k => (k.setAt p i u).map (fun k' => .node ty v (ks.set j k')))
termination_by _ p => p.length

mutual
/-- The tree as an object of C63, whose encoding is defined there; `none` if a part has no value (then C59 says what `encode` does). -/
def Tree.made : Tree → Option Made
  | .node (.prim k a) (some v) _ => some (.simple k a v)
  | .node (.seq s a cs) _ ks => (ks.slots).map (.seq s a cs)
  | .node (.of s a t) _ ks => (ks.list).map (.of s a t)
  | .node (.choice a cs) _ ks => (ks.only 0).map (fun p => .choice a cs p.1 p.2)
  | _ => none
def Kids.slots : Kids → Option MadeSlots
  | .nil => some .nil
  | .gap ks => ks.slots.map .gap
  | .put t ks => match t.made, ks.slots with
    | some o, some ss => some (.put o ss)
    | _, _ => none
def Kids.list : Kids → Option MadeList
  | .nil => some .nil
  | .gap _ => none
  | .put t ks => match t.made, ks.list with
    | some o, some os => some (.cons o os)
    | _, _ => none
def Kids.only : Kids → Nat → Option (Nat × Made)
  | .nil, _ => none
  | .gap ks, i => ks.only (i + 1)
  | .put t _, i => t.made.map (fun o => (i, o))
end

/-- The object, all parts of which have values, is encoded as `b`. -/
def Encodes (h : Heap) (x : Nat) (b : Bytes) : Prop := ∃ t m, Shows h x t ∧ t.made = some m ∧ m.enc false = some b

end Asn1
end Verif
