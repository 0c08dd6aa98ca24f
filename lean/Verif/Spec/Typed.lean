import Verif.Spec.OpenDer

/-!
# Objects that are assembled with typed contents

`Typed D ok ine t v w`: `w` is an object of type `t` whose open type fields have been given objects of the registered types,
which may hold such objects in turn, and `v` is the same object with octets in these fields, namely the encodings of what
was put there.  Nothing is said about decoding.

`ok` restricts the fields; `ine` says whether the object sits in an OPTIONAL component.
-/

namespace Verif
namespace Asn1

def OVals.every (p : OVal → Bool) : OVals → Bool
  | .nil => true
  | .cons w ws => p w && ws.every p

mutual
inductive Typed (D : Registry) (ok : Content → Prop) : Bool → Ty → Val → OVal → Prop
  | prim (ine : Bool) (k : Prim) (a : Attrs) (v : Val) : Typed D ok ine (.prim k a) v (.leaf v)
  | seq (ine s : Bool) (a : Attrs) (cs : Comps) (vs : Vals) (ws : OVals) :
      TypedC D ok cs vs cs vs ws → Typed D ok ine (.seq s a cs) (.record vs) (.record ws)
  | of (ine s : Bool) (a : Attrs) (t : Ty) (vs : Vals) (ws : OVals) :
      TypedE D ok ine t vs ws → Typed D ok ine (.of s a t) (.list vs) (.list ws)
  | choice (ine : Bool) (a : Attrs) (cs : Comps) (i : Nat) (f : Field) (t : Ty) (v : Val) (w : OVal) :
      cs.get? i = some (f, t) → Typed D ok ine t v w → Typed D ok ine (.choice a cs) (.alt i v) (.alt i w)
/-- The elements of a SEQUENCE OF or SET OF. -/
inductive TypedE (D : Registry) (ok : Content → Prop) : Bool → Ty → Vals → OVals → Prop
  | nil (ine : Bool) (t : Ty) : TypedE D ok ine t .nil .nil
  | cons (ine : Bool) (t : Ty) (v : Val) (w : OVal) (vs : Vals) (ws : OVals) :
      Typed D ok ine t v w → TypedE D ok ine t vs ws → TypedE D ok ine t (.cons v vs) (.cons w ws)
/-- Some components of a SEQUENCE or SET whose components are `ds`/`us`. -/
inductive TypedC (D : Registry) (ok : Content → Prop) : Comps → Vals → Comps → Vals → OVals → Prop
  | nil (ds : Comps) (us : Vals) : TypedC D ok ds us .nil .nil .nil
  | cons (ds : Comps) (us : Vals) (f : Field) (t : Ty) (cs : Comps) (v : Val) (vs : Vals) (w : OVal) (ws : OVals) :
      TypedF D ok ds us f t v w → TypedC D ok ds us cs vs ws → TypedC D ok ds us (.cons f t cs) (.cons v vs) (.cons w ws)
/-- One component. -/
inductive TypedF (D : Registry) (ok : Content → Prop) : Comps → Vals → Field → Ty → Val → OVal → Prop
  /-- an absent optional component -/
  | absent (ds : Comps) (us : Vals) (f : Field) (t : Ty) : f.mode = .opt ∨ f.mode = .dflt .absent → TypedF D ok ds us f t .absent (.leaf .absent)
  /-- a component that has not been set and takes its default value; what the open type fields in this value hold are
  encodings too -/
  | dflt (ds : Comps) (us : Vals) (f : Field) (t : Ty) (v : Val) (w : OVal) : f.mode = .dflt v → f.openType = none →
      Typed D ok false t v w → TypedF D ok ds us f t v (.leaf v)
  /-- a component that is not an open type -/
  | plain (ds : Comps) (us : Vals) (f : Field) (t : Ty) (v : Val) (w : OVal) : f.openType = none → f.mode ≠ .dflt v →
      Typed D ok f.mode.isOpt t v w → TypedF D ok ds us f t v w
  /-- an open type whose governor is not registered -/
  | unknown (ds : Comps) (us : Vals) (f : Field) (t : Ty) (v : Val) (w : OVal) (o : OpenTy) (g : Val) :
      f.openType = some o → fieldVal o.governor ds us = some g → D o.map g = none → f.mode ≠ .dflt v →
      Typed D ok f.mode.isOpt t v w → TypedF D ok ds us f t v w
  /-- an open type whose governor is registered -/
  | known (ds : Comps) (us : Vals) (f : Field) (t : Ty) (v : Val) (w : OVal) (o : OpenTy) (g : Val) (u : Ty) :
      f.openType = some o → fieldVal o.governor ds us = some g → D o.map g = some u → f.mode ≠ .dflt v →
      TypedV D ok f.mode.isOpt o.map g t u v w → TypedF D ok ds us f t v w
/-- An object of type `u` in an open type field of type `t`, or several in a collection; the dictionary `m` has `u` for
`k`.  In the field are the octets of the object; an object that is written with no octets at all cannot be put there. -/
inductive TypedV (D : Registry) (ok : Content → Prop) : Bool → Ident → Val → Ty → Ty → Val → OVal → Prop
  | one (ine : Bool) (m : Ident) (k : Val) (p : Prim) (a : Attrs) (u : Ty) (b : Bytes) (v : Val) (w : OVal) :
      u.valid v = true → enc ine u v = some b → (ine = true → u.vanish v = false) → ok ⟨ine, m, k, .prim p a, u, b⟩ →
      Typed D ok ine u v w → TypedV D ok ine m k (.prim p a) u (.octets b) (.opened u w)
  | many (ine : Bool) (m : Ident) (k : Val) (s : Bool) (a : Attrs) (t u : Ty) (vs : Vals) (ws : OVals) :
      TypedL D ok ine m k t u vs ws → TypedV D ok ine m k (.of s a t) u (.list vs) (.list ws)
/-- As `TypedV`, for the elements of a SET OF or SEQUENCE OF open types. -/
inductive TypedL (D : Registry) (ok : Content → Prop) : Bool → Ident → Val → Ty → Ty → Vals → OVals → Prop
  | nil (ine : Bool) (m : Ident) (k : Val) (t u : Ty) : TypedL D ok ine m k t u .nil .nil
  | cons (ine : Bool) (m : Ident) (k : Val) (t u : Ty) (b : Bytes) (v : Val) (w : OVal) (vs : Vals) (ws : OVals) :
      u.valid v = true → enc ine u v = some b → (ine = true → u.vanish v = false) → ok ⟨ine, m, k, t, u, b⟩ →
      Typed D ok ine u v w → TypedL D ok ine m k t u vs ws →
      TypedL D ok ine m k t u (.cons (.octets b) vs) (.cons (.opened u w) ws)
end

/-! ## What should come back -/

mutual
/-- An object that is left out where it is OPTIONAL: collections without elements and records in which nothing is set. -/
def Ty.hollow : Ty → OVal → Bool
  | .seq _ _ cs, .record ws => cs.hollow ws
  | .of _ _ t, .list ws => ws.every t.hollow
  | .choice _ cs, .alt i w => cs.hollowAlt i w
  | _, _ => false
def Comps.hollow : Comps → OVals → Bool
  | .nil, .nil => true
  | .cons f t cs, .cons w ws =>
    (match f.mode with
     | .req => false
     | .opt => decide (w = .leaf .absent) || t.hollow w
     | .dflt d => decide (w = .leaf d) || decide (w = .leaf .absent)) && cs.hollow ws
  | _, _ => false
def Comps.hollowAlt : Comps → Nat → OVal → Bool
  | .cons _ t _, 0, w => t.hollow w
  | .cons _ _ cs, i + 1, w => cs.hollowAlt i w
  | .nil, _, _ => false
end

mutual
/-- `x` is the same object as `w`, with its typed contents: the elements of a SET OF may be in another order, and what is
empty within an OPTIONAL component may be gone. -/
inductive Alike : Bool → Ty → OVal → OVal → Prop
  | leaf (ine : Bool) (k : Prim) (a : Attrs) (v : Val) : Alike ine (.prim k a) (.leaf v) (.leaf v)
  /-- an object of the same type in an open type field -/
  | opened (ine : Bool) (k : Prim) (a : Attrs) (u : Ty) (w x : OVal) : Alike ine u w x →
      Alike ine (.prim k a) (.opened u w) (.opened u x)
  | seq (ine s : Bool) (a : Attrs) (cs : Comps) (ws xs : OVals) : AlikeC cs ws xs → Alike ine (.seq s a cs) (.record ws) (.record xs)
  | seqOf (ine : Bool) (a : Attrs) (t : Ty) (ws xs : OVals) : AlikeE ine t ws.toList xs.toList →
      Alike ine (.of false a t) (.list ws) (.list xs)
  | setOf (ine : Bool) (a : Attrs) (t : Ty) (ws xs : OVals) (ys : List OVal) : ys.Perm ws.toList → AlikeE ine t ys xs.toList →
      Alike ine (.of true a t) (.list ws) (.list xs)
  | choice (ine : Bool) (a : Attrs) (cs : Comps) (i : Nat) (f : Field) (t : Ty) (w x : OVal) : cs.get? i = some (f, t) →
      Alike ine t w x → Alike ine (.choice a cs) (.alt i w) (.alt i x)
inductive AlikeE : Bool → Ty → List OVal → List OVal → Prop
  | nil (ine : Bool) (t : Ty) : AlikeE ine t [] []
  | cons (ine : Bool) (t : Ty) (w x : OVal) (ws xs : List OVal) : Alike ine t w x → AlikeE ine t ws xs → AlikeE ine t (w :: ws) (x :: xs)
  | drop (t : Ty) (w : OVal) (ws xs : List OVal) : t.hollow w = true → AlikeE true t ws xs → AlikeE true t (w :: ws) xs
inductive AlikeC : Comps → OVals → OVals → Prop
  | nil : AlikeC .nil .nil .nil
  | cons (f : Field) (t : Ty) (cs : Comps) (w x : OVal) (ws xs : OVals) : AlikeF f t w x → AlikeC cs ws xs →
      AlikeC (.cons f t cs) (.cons w ws) (.cons x xs)
inductive AlikeF : Field → Ty → OVal → OVal → Prop
  | absent (f : Field) (t : Ty) : f.mode ≠ .req → AlikeF f t (.leaf .absent) (.leaf .absent)
  | empty (f : Field) (t : Ty) (w : OVal) : f.mode = .opt → t.hollow w = true → AlikeF f t w (.leaf .absent)
  | dflt (f : Field) (t : Ty) (v : Val) : f.mode = .dflt v → AlikeF f t (.leaf v) (.leaf v)
  | set (f : Field) (t : Ty) (w x : OVal) : Alike f.mode.isOpt t w x → AlikeF f t w x
end

mutual
/-- Nothing in the object is reordered or left out: no SET OF in it has more than one element, and nothing within an
OPTIONAL component is empty. -/
def OVal.settled (ine : Bool) : Ty → OVal → Bool
  | _, .leaf _ => true
  | _, .opened u w => w.settled ine u
  | .seq _ _ cs, .record ws => ws.settledC cs
  | .of s _ t, .list ws => (!s || decide (ws.length ≤ 1)) && ws.settledE ine t
  | .choice _ cs, .alt i w => match cs.get? i with
    | some (_, t) => w.settled ine t
    | none => true
  | _, _ => true
def OVals.settledE (ine : Bool) (t : Ty) : OVals → Bool
  | .nil => true
  | .cons w ws => !(ine && t.hollow w) && w.settled ine t && ws.settledE ine t
def OVals.settledC : Comps → OVals → Bool
  | .cons f t cs, .cons w ws =>
    (decide (w = .leaf .absent) || !(f.mode.isOpt && t.hollow w)) && w.settled f.mode.isOpt t && ws.settledC cs
  | _, _ => true
end

end Asn1
end Verif
