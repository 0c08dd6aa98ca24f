import Verif.Asn1.Open
import Verif.Asn1.Canon

/-!
# Objects of other classes as components

`x['name'] = y`, `x.append(y)` where `y` is an object whose class need not be that of the component (pyasn1 0.4.8,
`type/univ.py`, `setComponentByPosition`; `type/base.py`, `isSuperTypeOf`; `type/tag.py`, `isSuperTagSetOf`;
`type/constraint.py`, `isSuperTypeOf`), and what `encode` then does: every object is encoded as its own class says
(`codec/ber/encoder.py`).  The tools and tests of the package build messages this way (e.g. ocspclient.py:77-96,
tests/test_rfc2560.py).

Objects here have values: a mandatory component that is not there makes `encode` raise (what happens to incomplete objects is in
`Build.lean`).  Simplified: constraints of different kinds with the same numbers, such as SIZE (1..2) and (1..2), which
`isSuperTypeOf` takes for equal, are different; components are compared with their DEFAULT by value; the elements of a list in an
open type field are not wrapped, as all of those in the package are ANYs without a tag.
-/

namespace Verif
namespace Asn1

mutual
/-- An object with its class. -/
inductive Made where
  | simple (k : Prim) (a : Attrs) (v : Val)
  | seq (isSet : Bool) (a : Attrs) (cs : Comps) (ss : MadeSlots)
  | of (isSet : Bool) (a : Attrs) (t : Ty) (os : MadeList)
  | choice (a : Attrs) (cs : Comps) (i : Nat) (o : Made)
inductive MadeSlots where
  | nil
  | gap (ss : MadeSlots)
  | put (o : Made) (ss : MadeSlots)
inductive MadeList where
  | nil
  | cons (o : Made) (os : MadeList)
end

namespace Made

/-- The class of the object. -/
def ty : Made → Ty
  | simple k a _ => .prim k a
  | seq s a cs _ => .seq s a cs
  | of s a t _ => .of s a t
  | choice a cs _ _ => .choice a cs

end Made

def MadeList.toList : MadeList → List Made
  | .nil => []
  | .cons o os => o :: os.toList

/-- The values of components that are not there: their DEFAULTs. -/
def Comps.missing : Comps → Vals
  | .nil => .nil
  | .cons f _ cs => .cons (f.mode.missing.getD .absent) cs.missing

/-- No component is mandatory. -/
def Comps.optional : Comps → Bool
  | .nil => true
  | .cons f _ cs => !f.mode.isReq && cs.optional

mutual
/-- What the object holds, read by its own class. -/
def Made.value : Made → Val
  | .simple _ _ v => v
  | .seq _ _ cs ss => .record (ss.values cs)
  | .of _ _ _ os => .list os.values
  | .choice _ _ i o => .alt i o.value
def MadeSlots.values : Comps → MadeSlots → Vals
  | .cons f _ cs, .gap ss => .cons (f.mode.missing.getD .absent) (MadeSlots.values cs ss)
  | .cons _ _ cs, .put o ss => .cons o.value (MadeSlots.values cs ss)
  | cs, .nil => cs.missing
  | .nil, _ => .nil
def MadeList.values : MadeList → Vals
  | .nil => .nil
  | .cons o os => .cons o.value os.values
end

/-! ## What may be assigned -/

/-- `TagSet.isSuperTagSetOf`: the tags of the other type begin with those of this one. -/
def superTags : TagSet → TagSet → Bool
  | [], _ => true
  | _ :: _, [] => false
  | t :: ts, u :: us => t.cls == u.cls && t.num == u.num && superTags ts us

mutual
/-- `c in other.getValueMap()`: somewhere within intersections and unions. -/
def Constraint.among (c : Constraint) : Constraint → Bool
  | .inter ds => c.amongAny ds
  | .union ds => c.amongAny ds
  | _ => false
def Constraint.amongAny (c : Constraint) : Constraints → Bool
  | .nil => false
  | .cons d ds => (d.truthy && (decide (c = d) || c.among d)) || c.amongAny ds
end

/-- `c.isSuperTypeOf(d)` of constraints. -/
def Constraint.super (c d : Constraint) : Bool := !c.truthy || decide (c = d) || c.among d

/-- `t.isSuperTypeOf(u)` of types. -/
def Ty.super (t u : Ty) : Bool := superTags t.tags u.tags && t.attrs.spec.super u.attrs.spec

/-- The test when a component of a SEQUENCE, SET or CHOICE is assigned. -/
def Field.accepts (f : Field) (t u : Ty) : Bool := t.super u || f.openType.isSome

/-- The test when an element of a list is assigned. -/
def elementAccepts (t u : Ty) : Bool := t.super u || t.anyLike

/-- `_componentValues[i] = o` -/
def MadeSlots.set (o : Made) : MadeSlots → Nat → MadeSlots
  | .nil, 0 => .put o .nil
  | .gap ss, 0 => .put o ss
  | .put _ ss, 0 => .put o ss
  | .nil, i + 1 => .gap (MadeSlots.set o .nil i)
  | .gap ss, i + 1 => .gap (ss.set o i)
  | .put p ss, i + 1 => .put p (ss.set o i)

def MadeList.snoc : MadeList → Made → MadeList
  | .nil, o => .cons o .nil
  | .cons p os, o => .cons p (os.snoc o)

/-- `x[i] = y` for SEQUENCE, SET and CHOICE, `x.append(y)` for lists (`i` is then the number of elements); `none`: it raises. -/
def Made.assign (x : Made) (i : Nat) (y : Made) : Option Made :=
  match x with
  | .simple _ _ _ => none
  | .seq s a cs ss =>
    match cs.get? i with
    | none => none
    | some (f, t) => if f.accepts t y.ty then some (.seq s a cs (ss.set y i)) else none
  | .of s a t os => if i = os.toList.length && elementAccepts t y.ty then some (.of s a t (os.snoc y)) else none
  | .choice a cs _ _ =>
    match cs.get? i with
    | none => none
    | some (f, t) => if f.accepts t y.ty then some (.choice a cs i y) else none

/-! ## Encoding -/

/-- The names of the components that are there. -/
def MadeSlots.names : Comps → MadeSlots → List String
  | .cons f _ cs, .put _ ss => f.name :: MadeSlots.names cs ss
  | .cons _ _ cs, .gap ss => MadeSlots.names cs ss
  | _, _ => []

/-- `SetEncoder._componentSortKey` -/
def Made.key : Made → TagSet
  | .choice a cs i _ =>
    if a.tags.isEmpty then match cs.get? i with
      | some (_, t) => t.tags
      | none => []
    else a.tags
  | o => o.ty.tags

/-- An object in an open type field is put into the field's own type; other objects are left as they are. -/
def Field.wrap (f : Field) (t u : Ty) (chunk : Bytes) : Option Bytes := if f.openType.isSome then putOpen t u chunk else some chunk

mutual
/-- `encode(x)` -/
def Made.enc (ine : Bool) : Made → Option Bytes
  | .simple k a v => (encPrim k v).bind (wrap false a.tags)
  | .seq isSet a cs ss =>
    if a.spec.ok (.mapping (ss.names cs).length (ss.names cs)) then
      match ss.enc cs with
      | none => none
      | some ps =>
        let ps := if isSet then sortBy tagsLe Prod.fst ps else ps
        let content := ps.flatMap Prod.snd
        if ine && content.isEmpty then some [] else wrap true a.tags content
    else none
  | .of isSet a _ os =>
    if a.spec.ok (.mapping os.toList.length []) then
      match os.enc ine with
      | none => none
      | some bs =>
        let content := (if isSet then sortB bs else bs).flatten
        if ine && content.isEmpty then some [] else wrap true a.tags content
    else none
  | .choice a _ _ o =>
    match o.enc ine with
    | none => none
    | some content => if ine && content.isEmpty then some [] else wrap true a.tags content
/-- Components of a SEQUENCE or SET, each with its sort key. -/
def MadeSlots.enc : Comps → MadeSlots → Option (List (TagSet × Bytes))
  | cs, .nil => if cs.optional then some [] else none
  | .cons f _ cs, .gap ss => if f.mode.isReq then none else MadeSlots.enc cs ss
  | .cons f t cs, .put o ss =>
    match MadeSlots.enc cs ss with
    | none => none
    | some ps =>
      if f.mode = .dflt o.value then some ps
      else match o.enc f.mode.isOpt with
        | none => none
        | some b => (f.wrap t o.ty b).map (fun b => (o.key, b) :: ps)
  | .nil, _ => none
def MadeList.enc (ine : Bool) : MadeList → Option (List Bytes)
  | .nil => some []
  | .cons o os =>
    match o.enc ine, os.enc ine with
    | some b, some bs => some (b :: bs)
    | _, _ => none
end

theorem MadeSlots.enc_rest (f : Field) (t : Ty) (cs : Comps) :
    MadeSlots.enc (.cons f t cs) .nil = if f.mode.isReq then none else MadeSlots.enc cs .nil := by
  rw [MadeSlots.enc, MadeSlots.enc, Comps.optional]
  cases f.mode <;> simp [Mode.isReq]

end Asn1
end Verif
