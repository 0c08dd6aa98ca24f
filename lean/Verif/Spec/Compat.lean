import Verif.Asn1.Wf
import Verif.Spec.Asn1

/-!
# When a newer schema reads what an older one reads

`Ty.covers u t v`: everything the value `v` of the older type `t` uses has a counterpart in
the newer type `u`.  `Ty.sub u t`: everything in `t` has.  `Ty.rel u t v w`: the value `w` of
`u` says what the value `v` of `t` says.
-/

namespace Verif
namespace Asn1

mutual
/-- The constraints of a (nested) intersection. -/
def Constraint.conj : Constraint → List Constraint
  | .inter cs => cs.conj
  | c => [c]
def Constraints.conj : Constraints → List Constraint
  | .nil => []
  | .cons c cs => c.conj ++ cs.conj
end

/-- The second interval or alphabet contains the first, or the constraints are equal. -/
def Constraint.within : Constraint → Constraint → Bool
  | .size l h, .size l' h' => l'.le l && h.le h'
  | .range l h, .range l' h' => l'.le l && h.le h'
  | .alphabet cs, .alphabet ds => ds.isEmpty || !cs.isEmpty && cs.all (fun c => ds.contains c)
  | c, d => c == d

/-- Each part of `d` follows from some part of `c`. -/
def Constraint.implies (c d : Constraint) : Bool :=
  d.conj.all (fun y => c.conj.any (fun x => x.within y))

/-- Class and number of the tags: the decoder does not look at the format of a schema tag. -/
def TagSet.bare (ts : TagSet) : List (Cls × Nat) := ts.map (fun t => (t.cls, t.num))

/-- No value of the base type meets the constraint (`len()` of an integer raises). -/
def Constraint.never (k : Prim) : Constraint → Bool
  | .size _ _ => k == .integer
  | _ => false

mutual
/-- The type has no values. -/
def Ty.empty : Ty → Bool
  | .prim k a => k != .any && a.spec.conj.any (·.never k)
  | .seq _ _ cs => cs.someEmpty
  | .of .. => false
  | .choice _ cs => cs.allEmpty
  | .bad _ => false
/-- Some mandatory component has no values. -/
def Comps.someEmpty : Comps → Bool
  | .nil => false
  | .cons f t cs => f.mode.isReq && t.empty || cs.someEmpty
/-- No alternative has values. -/
def Comps.allEmpty : Comps → Bool
  | .nil => true
  | .cons _ t cs => t.empty && cs.allEmpty
end

/-- An ANY with a tag.  (pyasn1 lets it take elements without the tag as well.) -/
def Ty.taggedAny : Ty → Bool
  | .prim .any a => !a.tags.isEmpty
  | _ => false

/-- An ANY without a tag. -/
def Ty.bareAny : Ty → Bool
  | .prim .any a => a.tags.isEmpty
  | _ => false

/-- Elements of the one type and of the other start with the same tag, which is the types' own. -/
def Ty.sameLead (u t : Ty) : Bool := u == t || u.tags.bare.getLast?.isSome && u.tags.bare.getLast? == t.tags.bare.getLast?

def Comps.sameLead : Comps → Comps → Bool
  | .nil, .nil => true
  | .cons _ u ds, .cons _ t cs => u.sameLead t && ds.sameLead cs
  | _, _ => false

/-- Elements of the one type and of the other start with the same tags. -/
def Ty.sameFirst (u t : Ty) : Bool := u.sameLead t ||
  match u, t with
  | .choice b ds, .choice a cs => b.tags.isEmpty && a.tags.isEmpty && ds.sameLead cs
  | _, _ => false

/-- No tagged ANY among the components that the next element could belong to. -/
def Comps.windowPlain : Comps → Bool
  | .nil => true
  | .cons f t cs => !t.taggedAny && (f.mode.isReq || cs.windowPlain)

/-- Looking at the next element, the component `u` cannot be mistaken for one of the following ones. -/
def Ty.skippable (u : Ty) (ds : Comps) : Bool := u.disjointWindow ds && ds.windowPlain

/-- Same name, or there are no components to spare. -/
def pairs (g f : Field) (ds cs : Comps) : Bool := g.name == f.name || ds.length ≤ cs.length

/-- A component of the older type is mandatory, or OPTIONAL in both, or has the same DEFAULT. -/
def Mode.reads : Mode → Mode → Bool
  | _, .req => true
  | .opt, .opt => true
  | .dflt e, .dflt d => e == d
  | _, _ => false

/-- The DEFAULT value is a value of the type. -/
def Field.admitsDefault (f : Field) (t : Ty) : Bool :=
  match f.mode with
  | .dflt d => t.admits d
  | _ => true

/-- The component `g : u`, followed by `ds`, is decided like the older component `f : t`, followed by `cs`. -/
def decides (g : Field) (u : Ty) (ds : Comps) (f : Field) (t : Ty) : Bool :=
  g.mode.reads f.mode &&
  (if u.taggedAny then (match ds with
      | .nil => t.taggedAny && u.sameFirst t
      | _ => g.mode.isReq)
    else f.mode.isReq || u.sameFirst t || u.bareAny && t.bareAny || u.skippable ds)

mutual
/-- Every element the older type `t` reads, the newer type `u` reads. -/
def Ty.sub : Ty → Ty → Bool
  | .prim k b, t => t.empty ||
    match t with
    | .prim k' a => (k == k' && a.tags.bare == b.tags.bare && (k == .any || a.spec.implies b.spec)) || (k == .any && b.tags.isEmpty)
    | _ => k == .any && b.tags.isEmpty
  | .seq s b ds, t => t.empty ||
    match t with
    | .seq s' a cs => s == s' && a.tags.bare == b.tags.bare && (!ds.noOpen || b.spec.conj.isEmpty) &&
        (if s then ds.subSet cs else ds.sub cs)
    | _ => false
  | .of s b u, t => t.empty ||
    match t with
    | .of s' a t => s == s' && a.tags.bare == b.tags.bare && u.sub t
    | _ => false
  | .choice b ds, t => t.empty ||
    ds.pairOk &&
    match t with
    | .choice a cs => a.tags.bare == b.tags.bare && cs.toList.all (fun p => ds.subAlt p.2)
    | t => b.tags.isEmpty && ds.subAlt t
  | .bad _, t => t.empty
def Comps.sub : Comps → Comps → Bool
  | .nil, .nil => true
  | .nil, .cons .. => false
  | .cons g _ ds, .nil => !g.mode.isReq && ds.sub .nil
  | .cons g u ds, .cons f t cs =>
    if pairs g f ds cs then decides g u ds f t && f.admitsDefault t && u.sub t && ds.sub cs
    else !g.mode.isReq && u.skippable ds && !u.taggedAny && ds.sub (.cons f t cs)
def Comps.subSet : Comps → Comps → Bool
  | .nil, .nil => true
  | .cons g u ds, .cons f t cs => g.mode.reads f.mode && u.sameFirst t && !u.taggedAny && f.admitsDefault t && u.sub t && ds.subSet cs
  | _, _ => false
def Comps.subAlt : Comps → Ty → Bool
  | .nil, _ => false
  | .cons _ u ds, t => (!u.taggedAny && u.sub t) || ds.subAlt t
end

mutual
/-- Every part of the value `v` of the older type `t` that is there can be read as the newer type `u`. -/
def Ty.covers : Ty → Ty → Val → Bool
  | .prim k b, t, v =>
    match t with
    | .prim k' a => (k == k' && a.tags.bare == b.tags.bare && (k == .any || b.spec.ok (.simple v))) || (k == .any && b.tags.isEmpty)
    | _ => k == .any && b.tags.isEmpty
  | .seq s b ds, t, v =>
    match t, v with
    | .seq s' a cs, .record vs => s == s' && a.tags.bare == b.tags.bare && (!ds.noOpen || b.spec.conj.isEmpty) &&
        (if s then ds.subSet cs else ds.covers cs vs)
    | _, _ => false
  | .of s b u, t, v =>
    match t, v with
    | .of s' a t, .list vs => s == s' && a.tags.bare == b.tags.bare && vs.toList.all (fun v => u.covers t v)
    | _, _ => false
  | .choice b ds, t, v =>
    ds.pairOk &&
    match t, v with
    | .choice a cs, .alt i v => a.tags.bare == b.tags.bare && (match cs.get? i with
        | some p => ds.coversAlt p.2 v
        | none => false)
    | .choice .., _ => false
    | t, v => b.tags.isEmpty && ds.coversAlt t v
  | .bad _, _, _ => false
def Comps.covers : Comps → Comps → Vals → Bool
  | .nil, .nil, _ => true
  | .nil, .cons .., _ => false
  | .cons g _ ds, .nil, vs => !g.mode.isReq && ds.covers .nil vs
  | .cons g u ds, .cons f t cs, vs =>
    if pairs g f ds cs then
      match vs with
      | .cons v vs => decides g u ds f t && ((f.mode.isOpt && v == .absent) || u.covers t v) && ds.covers cs vs
      | .nil => false
    else !g.mode.isReq && u.skippable ds && !u.taggedAny && ds.covers (.cons f t cs) vs
def Comps.coversAlt : Comps → Ty → Val → Bool
  | .nil, _, _ => false
  | .cons _ u ds, t, v => (!u.taggedAny && u.covers t v) || ds.coversAlt t v
end

/-- The value a component that the older schema does not know gets. -/
def Mode.fresh : Mode → Val
  | .dflt v => v
  | _ => .absent

mutual
/-- `w`, of the newer type `u`, says what `v`, of the older type `t`, says: equal octet by octet at
the leaves, component by component and alternative by alternative, components that `t` does
not know being absent (or DEFAULT); where `u` has ANY and `t` does not, the octets decode to `v`. -/
def Ty.rel : Ty → Ty → Val → Val → Prop
  | .prim k b, t, v, w =>
    (w = v ∧ t.tags.bare = b.tags.bare) ∨ (k = .any ∧ b.tags = [] ∧ ∃ o, w = .octets o ∧ decode t o = some (v, []))
  | .seq _ _ ds, .seq _ _ cs, .record vs, .record ws => ds.rel cs vs ws
  | .of _ _ u, .of _ _ t, .list vs, .list ws =>
    vs.length = ws.length ∧ ∀ p ∈ vs.toList.zip ws.toList, u.rel t p.1 p.2
  | .choice _ ds, .choice _ cs, .alt i v, .alt j w => ∃ p, cs.get? i = some p ∧ ds.relAlt j p.2 v w
  | .choice _ ds, t, v, .alt j w => ds.relAlt j t v w
  | _, _, _, _ => False
def Comps.rel : Comps → Comps → Vals → Vals → Prop
  | .nil, .nil, .nil, .nil => True
  | .cons g _ ds, .nil, vs, .cons w ws => w = g.mode.fresh ∧ ds.rel .nil vs ws
  | .cons g u ds, .cons f t cs, .cons v vs, .cons w ws =>
    if pairs g f ds cs then ((v = .absent ∧ w = .absent) ∨ (g.mode = .dflt w ∧ f.mode = .dflt w ∧ v = w) ∨ u.rel t v w) ∧ ds.rel cs vs ws
    else w = g.mode.fresh ∧ ds.rel (.cons f t cs) (.cons v vs) ws
  | _, _, _, _ => False
def Comps.relAlt : Comps → Nat → Ty → Val → Val → Prop
  | .cons _ u _, 0, t, v, w => u.rel t v w
  | .cons _ _ ds, j + 1, t, v, w => ds.relAlt j t v w
  | .nil, _, _, _, _ => False
end

end Asn1
end Verif
