import Verif.Asn1.Open

/-!
# What decoding with open types should return

`Opens S ine t v w`: `w` is the value `v` of type `t` in which every open type
field has been replaced by the decoding of its octets under the registered type.
Stated on values, with the plain decoder for the contents; it does not mention
the decoder for open types.

`S` allows additional requirements on the way; `ine` says whether the value sits
in an OPTIONAL component.
-/

namespace Verif
namespace Asn1

/-- The value of the component called `name`. -/
def fieldVal (name : String) : Comps → Vals → Option Val
  | .cons f _ cs, .cons v vs => if f.name = name then some v else fieldVal name cs vs
  | _, _ => none

structure Side where
  registry : Registry
  /-- the contents `b` of a field of type `t`, decoded as `u` to `v` -/
  content : Bool → Ty → Ty → Bytes → Val → Prop := fun _ _ _ _ _ => True
  /-- a component that is present -/
  present : Field → Val → OVal → Prop := fun _ _ _ => True
  /-- the components of a SET -/
  set : Comps → Prop := fun _ => True

mutual
inductive Opens (S : Side) : Bool → Ty → Val → OVal → Prop
  | prim (ine : Bool) (k : Prim) (a : Attrs) (v : Val) : Opens S ine (.prim k a) v (.leaf v)
  | seq (ine s : Bool) (a : Attrs) (cs : Comps) (vs : Vals) (ws : OVals) :
      (s = true → S.set cs) → OpensC S cs vs cs vs ws → Opens S ine (.seq s a cs) (.record vs) (.record ws)
  | of (ine s : Bool) (a : Attrs) (t : Ty) (vs : Vals) (ws : OVals) :
      OpensE S ine t vs ws → Opens S ine (.of s a t) (.list vs) (.list ws)
  | choice (ine : Bool) (a : Attrs) (cs : Comps) (i : Nat) (f : Field) (t : Ty) (v : Val) (w : OVal) :
      cs.get? i = some (f, t) → Opens S ine t v w → Opens S ine (.choice a cs) (.alt i v) (.alt i w)
/-- The elements of a SEQUENCE OF or SET OF. -/
inductive OpensE (S : Side) : Bool → Ty → Vals → OVals → Prop
  | nil (ine : Bool) (t : Ty) : OpensE S ine t .nil .nil
  | cons (ine : Bool) (t : Ty) (v : Val) (w : OVal) (vs : Vals) (ws : OVals) :
      Opens S ine t v w → OpensE S ine t vs ws → OpensE S ine t (.cons v vs) (.cons w ws)
/-- Some components of a SEQUENCE or SET whose components are `ds`/`us`. -/
inductive OpensC (S : Side) : Comps → Vals → Comps → Vals → OVals → Prop
  | nil (ds : Comps) (us : Vals) : OpensC S ds us .nil .nil .nil
  | cons (ds : Comps) (us : Vals) (f : Field) (t : Ty) (cs : Comps) (v : Val) (vs : Vals) (w : OVal) (ws : OVals) :
      OpensF S ds us f t v w → OpensC S ds us cs vs ws → OpensC S ds us (.cons f t cs) (.cons v vs) (.cons w ws)
/-- One component. -/
inductive OpensF (S : Side) : Comps → Vals → Field → Ty → Val → OVal → Prop
  /-- an absent optional component -/
  | absent (ds : Comps) (us : Vals) (f : Field) (t : Ty) : f.mode = .opt → OpensF S ds us f t .absent (.leaf .absent)
  /-- a component that takes its default value -/
  | dflt (ds : Comps) (us : Vals) (f : Field) (t : Ty) (v : Val) : f.mode = .dflt v →
      (∀ o g, f.openType = some o → fieldVal o.governor ds us = some g → S.registry o.map g = none) →
      OpensF S ds us f t v (.leaf v)
  /-- a component that is not an open type -/
  | plain (ds : Comps) (us : Vals) (f : Field) (t : Ty) (v : Val) (w : OVal) : f.openType = none → S.present f v w →
      Opens S f.mode.isOpt t v w → OpensF S ds us f t v w
  /-- an open type whose governor is not registered -/
  | unknown (ds : Comps) (us : Vals) (f : Field) (t : Ty) (v : Val) (w : OVal) (o : OpenTy) (g : Val) :
      f.openType = some o → fieldVal o.governor ds us = some g → S.registry o.map g = none → S.present f v w →
      Opens S f.mode.isOpt t v w → OpensF S ds us f t v w
  /-- an open type whose governor is registered -/
  | known (ds : Comps) (us : Vals) (f : Field) (t : Ty) (v : Val) (w : OVal) (o : OpenTy) (g : Val) (u : Ty) :
      f.openType = some o → fieldVal o.governor ds us = some g → S.registry o.map g = some u → S.present f v w →
      OpensV S f.mode.isOpt t u v w → OpensF S ds us f t v w
/-- The octets of an open type of type `t`, decoded as `u`. -/
inductive OpensV (S : Side) : Bool → Ty → Ty → Val → OVal → Prop
  | one (ine : Bool) (t u : Ty) (b rest : Bytes) (v : Val) (w : OVal) : decode u b = some (v, rest) →
      S.content ine t u b v → Opens S ine u v w → OpensV S ine t u (.octets b) (.opened u w)
  | many (ine s : Bool) (a : Attrs) (t u : Ty) (vs : Vals) (ws : OVals) : OpensL S ine t u vs ws →
      OpensV S ine (.of s a t) u (.list vs) (.list ws)
/-- As `OpensV`, for the elements of a SET OF or SEQUENCE OF open types. -/
inductive OpensL (S : Side) : Bool → Ty → Ty → Vals → OVals → Prop
  | nil (ine : Bool) (t u : Ty) : OpensL S ine t u .nil .nil
  | cons (ine : Bool) (t u : Ty) (b rest : Bytes) (v : Val) (w : OVal) (vs : Vals) (ws : OVals) :
      decode u b = some (v, rest) → S.content ine t u b v → Opens S ine u v w → OpensL S ine t u vs ws →
      OpensL S ine t u (.cons (.octets b) vs) (.cons (.opened u w) ws)
end

/-- The octet strings in the value of an open type field. -/
def octetsIn : Val → List Bytes
  | .octets b => [b]
  | .list vs => vs.toList.filterMap (fun v => match v with
    | .octets b => some b
    | _ => none)
  | _ => []

mutual
/-- What the open type fields of a value contain: registered type and octets. -/
def Ty.contents (D : Registry) : Ty → Val → List (Ty × Bytes)
  | .seq _ _ cs, .record vs => Comps.contents D cs vs cs vs
  | .of _ _ t, .list vs => vs.toList.flatMap (t.contents D)
  | .choice _ cs, .alt i v => cs.contentsAlt D i v
  | _, _ => []
def Comps.contents (D : Registry) (ds : Comps) (us : Vals) : Comps → Vals → List (Ty × Bytes)
  | .cons f t cs, .cons v vs =>
    t.contents D v ++
    (match f.openType with
     | none => []
     | some o => match (fieldVal o.governor ds us).bind (D o.map) with
       | none => []
       | some u => (octetsIn v).map (fun b => (u, b))) ++
    Comps.contents D ds us cs vs
  | _, _ => []
def Comps.contentsAlt (D : Registry) : Comps → Nat → Val → List (Ty × Bytes)
  | .cons _ t _, 0, v => t.contents D v
  | .cons _ _ cs, i + 1, v => cs.contentsAlt D i v
  | .nil, _, _ => []
end

end Asn1
end Verif
