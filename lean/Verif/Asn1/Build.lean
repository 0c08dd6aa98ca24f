import Verif.Asn1.Codec
import Verif.Asn1.Canon

/-!
# Objects in memory

What `X()`, `x['name']`, `x['name'] = value`, `x[0]`, `hasValue`/`isValue` and `encode(x)` do to an object of pyasn1 0.4.8
(`type/univ.py`: `SequenceAndSetBase`, `SequenceOfAndSetOfBase`, `Choice`; `codec/ber/encoder.py`).  The package builds
objects this way at module level (e.g. rfc6211.py:61-63), in its tools (snmpget.py:23-36, ocspclient.py:77-96) and in its tests.

Components are addressed by position; names are unique (C22).  Not modelled: two variables holding the same object,
objects whose type is not that of the component they are assigned to, assigning to a list beyond its end, open types.
Simplified: a simple object made without an argument has no value, `Null()` included; the class attribute `defaultValue`, which
only rfc1157.py:27 sets, is not modelled; an operation that raises leaves the object as it was.
-/

namespace Verif
namespace Asn1

mutual
/-- An object; its type is known from the context. -/
inductive Obj where
  /-- a simple object without a value -/
  | schema
  /-- a simple object with a value -/
  | leaf (v : Val)
  /-- a constructed object nothing has been assigned to (`_componentValues is noValue`, `_currentIdx is None`) -/
  | blank
  /-- SEQUENCE, SET -/
  | record (ss : Slots)
  /-- SEQUENCE OF, SET OF -/
  | list (os : Objs)
  /-- CHOICE: the position of the alternative and its object -/
  | chosen (i : Nat) (o : Obj)
/-- `_componentValues`: objects or `noValue`; missing ones at the end are `noValue` as well. -/
inductive Slots where
  | nil
  | gap (ss : Slots)
  | put (o : Obj) (ss : Slots)
inductive Objs where
  | nil
  | cons (o : Obj) (os : Objs)
end

deriving instance DecidableEq, Repr for Obj, Slots, Objs

instance : Inhabited Obj := ⟨.blank⟩

def Slots.head : Slots → Option Obj
  | .put o _ => some o
  | _ => none

def Slots.tail : Slots → Slots
  | .put _ ss => ss
  | .gap ss => ss
  | .nil => .nil

def Slots.cons : Option Obj → Slots → Slots
  | some o, ss => .put o ss
  | none, ss => .gap ss

def Slots.get? : Slots → Nat → Option Obj
  | ss, 0 => ss.head
  | ss, i + 1 => ss.tail.get? i

/-- `_componentValues[i] = o` -/
def Slots.set (o : Obj) : Slots → Nat → Slots
  | ss, 0 => .put o ss.tail
  | ss, i + 1 => .cons ss.head (ss.tail.set o i)

def Objs.toList : Objs → List Obj
  | .nil => []
  | .cons o os => o :: os.toList

def Objs.ofList : List Obj → Objs
  | [] => .nil
  | o :: os => .cons o (.ofList os)

/-- The slots; none if the object is blank. -/
def Obj.slots : Obj → Slots
  | .record ss => ss
  | _ => .nil

/-- The elements; none if the object is blank. -/
def Obj.elems : Obj → List Obj
  | .list os => os.toList
  | _ => []

mutual
/-- The object with a given value, as in `asn1Object` of a `DefaultedNamedType`, or as returned by the decoder. -/
def Obj.of : Ty → Val → Obj
  | .prim _ _, v => .leaf v
  | .seq _ _ cs, .record vs => .record (Slots.of cs vs)
  | .of _ _ t, .list vs => .list (.ofList (vs.toList.map (Obj.of t)))
  | .choice _ cs, .alt i v => .chosen i (Obj.ofAlt cs i v)
  | _, _ => .blank
def Slots.of : Comps → Vals → Slots
  | .cons _ t cs, .cons v vs => if v = .absent then .gap (Slots.of cs vs) else .put (Obj.of t v) (Slots.of cs vs)
  | _, _ => .nil
def Obj.ofAlt : Comps → Nat → Val → Obj
  | .cons _ t _, 0, v => Obj.of t v
  | .cons _ _ cs, i + 1, v => Obj.ofAlt cs i v
  | .nil, _, _ => .blank
end

/-- `X()`: an object without a value. -/
def Obj.fresh : Ty → Obj
  | .prim _ _ => .schema
  | _ => .blank

/-- What `setComponentByPosition(i)` puts into a component: an object without a value, or the default. -/
def Obj.initial (f : Field) (t : Ty) : Obj :=
  match f.mode with
  | .dflt d => if d = .absent then .fresh t else .of t d
  | _ => .fresh t

/-- The object in the first slot, or what reading it would put there. -/
def Slots.first (f : Field) (t : Ty) (ss : Slots) : Obj := ss.head.getD (.initial f t)

mutual
/-- `isValue` (`hasValue()`). -/
def Ty.isValue : Ty → Obj → Bool
  | .prim _ _, .leaf _ => true
  | .seq _ _ cs, .record ss => cs.isValue ss
  | .of _ _ t, .list os => os.toList.all t.isValue
  | .choice _ cs, .chosen i o => cs.isValueAlt i o
  | _, _ => false
/-- All components that are neither OPTIONAL nor DEFAULT have a value. -/
def Comps.isValue : Comps → Slots → Bool
  | .nil, _ => true
  | .cons f t cs, ss => (!f.mode.isReq || (match ss.head with | some o => t.isValue o | none => false)) && cs.isValue ss.tail
def Comps.isValueAlt : Comps → Nat → Obj → Bool
  | .cons _ t _, 0, o => t.isValue o
  | .cons _ _ cs, i + 1, o => cs.isValueAlt i o
  | .nil, _, _ => false
end

/-- The component may be passed over if it has no value: it is OPTIONAL, or DEFAULT where the default has no value. -/
def Mode.lax : Mode → Bool
  | .opt => true
  | .dflt d => d == .absent
  | .req => false

mutual
/-- The value that is encoded, if the object is complete. -/
def Ty.value : Ty → Obj → Option Val
  | .prim _ _, .leaf v => some v
  | .seq _ _ cs, .record ss => (cs.values ss).map .record
  | .seq _ a cs, .blank => if a.spec.truthy then none else (cs.values .nil).map .record
  | .of _ _ t, .list os => (mapOpt t.value os.toList).map (fun vs => .list (.ofList vs))
  | .of _ a _, .blank => if a.spec.truthy then none else some (.list .nil)
  | .choice _ cs, .chosen i o => (cs.valueAlt i o).map (.alt i)
  | _, _ => none
def Comps.values : Comps → Slots → Option Vals
  | .nil, _ => some .nil
  | .cons f t cs, ss =>
    match if f.mode.lax && !t.isValue (ss.first f t) then some .absent else t.value (ss.first f t), cs.values ss.tail with
    | some v, some vs => some (.cons v vs)
    | _, _ => none
def Comps.valueAlt : Comps → Nat → Obj → Option Val
  | .cons _ t _, 0, o => t.value o
  | .cons _ _ cs, i + 1, o => cs.valueAlt i o
  | .nil, _, _ => none
end

/-- The names of the components that are not `noValue`: what `isInconsistent` shows to the constraint. -/
def slotNames : Comps → Slots → List String
  | .nil, _ => []
  | .cons f _ cs, ss => if ss.head.isSome then f.name :: slotNames cs ss.tail else slotNames cs ss.tail

/-- `not isInconsistent`, SEQUENCE and SET. -/
def consistent (a : Attrs) (cs : Comps) : Obj → Bool
  | .record ss => a.spec.ok (.mapping (slotNames cs ss).length (slotNames cs ss))
  | .blank => !a.spec.truthy
  | _ => false

/-- `not isInconsistent`, SEQUENCE OF and SET OF. -/
def consistentOf (a : Attrs) : Obj → Bool
  | .list os => a.spec.ok (.mapping os.toList.length [])
  | .blank => !a.spec.truthy
  | _ => false

/-- `SetEncoder._componentSortKey` -/
def sortKey : Ty → Obj → TagSet
  | .choice a cs, .chosen i _ =>
    if a.tags.isEmpty then match cs.get? i with
      | some (_, t) => t.tags
      | none => []
    else a.tags
  | t, _ => t.tags

/-- `component == namedType.asn1Object` for a DEFAULT component.  Simplified: the values are compared. -/
def isDefault (f : Field) (t : Ty) (o : Obj) : Bool :=
  match f.mode with
  | .dflt d => if d = .absent then !t.isValue o else t.value o == some d
  | _ => false

mutual
/-- `encode(x)`; as `enc`, but on objects. -/
def encObj (ine : Bool) : Ty → Obj → Option Bytes
  | .prim k a, .leaf v => (encPrim k v).bind (wrap false a.tags)
  | .seq isSet a cs, o =>
    if consistent a cs o then
      match encSlots cs o.slots with
      | none => none
      | some ps =>
        let ps := if isSet then sortBy tagsLe Prod.fst ps else ps
        let content := ps.flatMap Prod.snd
        if ine && content.isEmpty then some [] else wrap true a.tags content
    else none
  | .of isSet a t, o =>
    if consistentOf a o then
      match mapOpt (encObj ine t) o.elems with
      | none => none
      | some cs =>
        let content := (if isSet then sortB cs else cs).flatten
        if ine && content.isEmpty then some [] else wrap true a.tags content
    else none
  | .choice a cs, .chosen i o =>
    match encObjAlt ine cs i o with
    | none => none
    | some content => if ine && content.isEmpty then some [] else wrap true a.tags content
  | _, _ => none
def encSlots : Comps → Slots → Option (List (TagSet × Bytes))
  | .nil, _ => some []
  | .cons f t cs, ss =>
    match encSlots cs ss.tail with
    | none => none
    | some ps =>
      if f.mode.isOpt && !t.isValue (ss.first f t) then some ps
      else if isDefault f t (ss.first f t) then some ps
      else match encObj f.mode.isOpt t (ss.first f t) with
        | none => none
        | some b => some ((sortKey t (ss.first f t), b) :: ps)
def encObjAlt (ine : Bool) : Comps → Nat → Obj → Option Bytes
  | .cons _ t _, 0, o => encObj ine t o
  | .cons _ _ cs, i + 1, o => encObjAlt ine cs i o
  | .nil, _, _ => none
end

mutual
/-- The object after `encode(x)`: `value.values()` has put an object into every component. -/
def touch : Ty → Obj → Obj
  | .seq _ _ cs, .record ss => .record (touchSlots cs ss)
  | .seq _ _ cs, .blank => .record (touchSlots cs .nil)
  | .of _ _ t, .list os => .list (.ofList (os.toList.map (touch t)))
  | .choice _ cs, .chosen i o => .chosen i (touchAlt cs i o)
  | _, o => o
def touchSlots : Comps → Slots → Slots
  | .nil, ss => ss
  | .cons f t cs, ss =>
    .put (if (f.mode.isOpt && !t.isValue (ss.first f t)) || isDefault f t (ss.first f t) then ss.first f t
      else touch t (ss.first f t)) (touchSlots cs ss.tail)
def touchAlt : Comps → Nat → Obj → Obj
  | .cons _ t _, 0, o => touch t o
  | .cons _ _ cs, i + 1, o => touchAlt cs i o
  | .nil, _, o => o
end

/-- Alternative `i` of a CHOICE, or what reading it would put there. -/
def Obj.under (f : Field) (t : Ty) (i : Nat) : Obj → Obj
  | .chosen j c => if j = i then c else .initial f t
  | _ => .initial f t

/-- `x[i][j]...`: go to a component, creating what is missing on the way (`getComponentByPosition`), and change it there.
In a CHOICE the alternative asked for becomes the chosen one, and what another one held is gone
(`Choice.setComponentByPosition`). -/
def atPath (g : Ty → Obj → Option Obj) : Ty → Obj → List Nat → Option Obj
  | t, o, [] => g t o
  | .seq _ _ cs, o, i :: p =>
    match cs.get? i with
    | none => none
    | some (f, t) => (atPath g t ((o.slots.get? i).getD (.initial f t)) p).map (fun c => .record (o.slots.set c i))
  | .of _ _ t, o, i :: p =>
    match o.elems[i]? with
    | some c => (atPath g t c p).map (fun c => .list (.ofList (o.elems.set i c)))
    | none =>
      if i = o.elems.length then (atPath g t (.fresh t) p).map (fun c => .list (.ofList (o.elems ++ [c]))) else none
  | .choice _ cs, o, i :: p =>
    match cs.get? i with
    | none => none
    | some (f, t) => (atPath g t (o.under f t i) p).map (.chosen i)
  | _, _, _ :: _ => none

/-- The Python value can be made into an object of the type: it is of the right kind. -/
def primKind : Prim → Val → Bool
  | .boolean, .int i => i == 0 || i == 1
  | .integer, .int _ => true
  | .enumerated, .int _ => true
  | .bitString, .bits _ => true
  | .octetString, .octets _ => true
  | .null, .null => true
  | .oid, .oid _ => true
  | .any, .octets _ => true
  | .str _, .str _ => true
  | .utcTime, .str _ => true
  | .generalizedTime, .str _ => true
  | _, _ => false

mutual
/-- Objects of the type: those that can be assigned to a component of the type. -/
def Ty.fits : Ty → Obj → Bool
  | .prim _ _, .schema => true
  | .prim k a, .leaf v => primKind k v && a.spec.ok (.simple v)
  | .seq _ _ _, .blank => true
  | .seq _ _ cs, .record ss => cs.fits ss
  | .of _ _ _, .blank => true
  | .of _ _ t, .list os => os.toList.all t.fits
  | .choice _ _, .blank => true
  | .choice _ cs, .chosen i o => cs.fitsAlt i o
  | _, _ => false
def Comps.fits : Comps → Slots → Bool
  | .nil, _ => true
  | .cons _ t cs, ss => (match ss.head with | some o => t.fits o | none => true) && cs.fits ss.tail
def Comps.fitsAlt : Comps → Nat → Obj → Bool
  | .cons _ t _, 0, o => t.fits o
  | .cons _ _ cs, i + 1, o => cs.fitsAlt i o
  | .nil, _, _ => false
end

/-- `x[i][j]...` -/
def readAt (t : Ty) (o : Obj) (p : List Nat) : Option Obj := atPath (fun _ c => some c) t o p

/-- An object takes the place of another one; raises if it is not of the type of the component. -/
def place (y : Obj) (u : Ty) (_ : Obj) : Option Obj := if u.fits y then some y else none

/-- `x[i][j]... = y` -/
def assignAt (t : Ty) (o : Obj) (p : List Nat) (y : Obj) : Option Obj := atPath (place y) t o p

/-- `encode(x[i][j]...)`: what becomes of the object. -/
def encodeAt (t : Ty) (o : Obj) (p : List Nat) : Option Obj :=
  atPath (fun u c => if (encObj false u c).isSome then some (touch u c) else none) t o p

end Asn1
end Verif
