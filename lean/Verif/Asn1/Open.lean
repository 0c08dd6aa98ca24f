import Verif.Asn1.Codec

/-!
# Open types

`decode(..., decodeOpenTypes=True)` and the encoder on what it returns, as in
pyasn1 0.4.8 (`codec/ber/decoder.py`, `SequenceOrSequenceOfDecoder.valueDecoder`
and `codec/ber/encoder.py`, `SequenceEncoder.encodeValue`): after the components
of a SEQUENCE or SET have been decoded, every component declared with
`openType=OpenType(governor, map)` is decoded once more with the type `map` has
for the value of the component named `governor`.
-/

namespace Verif
namespace Asn1

mutual
/-- Values in which open type fields have been decoded. -/
inductive OVal where
  /-- an ordinary value -/
  | leaf (v : Val)
  | record (vs : OVals)
  | list (vs : OVals)
  | alt (i : Nat) (v : OVal)
  /-- the contents of an open type field, decoded as `t` -/
  | opened (t : Ty) (v : OVal)
inductive OVals where
  | nil
  | cons (v : OVal) (vs : OVals)
end

deriving instance DecidableEq for OVal, OVals

instance : Inhabited OVal := ⟨.leaf .absent⟩

def OVals.ofList : List OVal → OVals
  | [] => .nil
  | v :: vs => .cons v (.ofList vs)

def OVals.toList : OVals → List OVal
  | .nil => []
  | .cons v vs => v :: vs.toList

def OVals.length : OVals → Nat
  | .nil => 0
  | .cons _ vs => vs.length + 1

/-- `component.isValue` is false. -/
def OVal.isAbsent : OVal → Bool
  | .leaf .absent => true
  | _ => false

/-- The type registered for a governor value in a dictionary. -/
abbrev Registry := Ident → Val → Option Ty

/-- Names of the components that are set. -/
def opresentNames : Comps → OVals → List String
  | .cons f _ cs, .cons v vs => if v.isAbsent then opresentNames cs vs else f.name :: opresentNames cs vs
  | _, _ => []

/-- `asn1Object.getComponentByName(name)`, which raises if there is none. -/
def governor (name : String) : Comps → OVals → Option Val
  | .cons f _ cs, .cons v vs =>
    if f.name = name then
      match v with
      | .leaf g => if g = .absent then none else some g
      | _ => none
    else governor name cs vs
  | _, _ => none

/-- Decode the octets of one open field as `u`. -/
def openOne (f : Ty → Bytes → Option OVal) (u : Ty) : OVal → Option OVal
  | .leaf (.octets b) => (f u b).map (.opened u)
  | _ => none

/-- The same, also for the elements of a SET OF / SEQUENCE OF open fields. -/
def openVal (f : Ty → Bytes → Option OVal) (u : Ty) : OVal → Option OVal
  | .list vs => (mapOpt (openOne f u) vs.toList).map (fun ws => .list (.ofList ws))
  | v => openOne f u v

/-- One step of the loop over the open type fields of one SEQUENCE or SET, whose components are
`cs`/`vs`. -/
def openField (D : Registry) (f : Ty → Bytes → Option OVal) (cs : Comps) (vs : OVals) (fld : Field) (v : OVal) : Option OVal :=
  match fld.openType with
  | none => some v
  | some ot =>
    if fld.mode.isOpt && v.isAbsent then some v
    else match governor ot.governor cs vs with
      | none => none
      | some g => match D ot.map g with
        | none => some v
        | some u => openVal f u v

/-- The loop over the open type fields. -/
def openAll (D : Registry) (f : Ty → Bytes → Option OVal) (cs : Comps) (vs : OVals) : Comps → OVals → Option OVals
  | .cons fld _ cs', .cons v vs' =>
    match openField D f cs vs fld v, openAll D f cs vs cs' vs' with
    | some w, some ws => some (.cons w ws)
    | _, _ => none
  | _, _ => some .nil

mutual
/-- As `decT`, with open types.  `f` decodes the octets of an open field. -/
def odecT (D : Registry) (f : Ty → Bytes → Option OVal) : Ty → TLV → Option OVal
  | .prim k a, x => (decPrimT k a x).map .leaf
  | .seq isSet a cs, x =>
    match innerItems a x with
    | none => none
    | some xs =>
      match (if isSet then
          (if xs.all cs.matches then odecSet D f cs xs else none)
        else odecComps D f cs xs) with
      | none => none
      | some vs =>
        if cs.noOpen then
          if a.spec.ok (.mapping (opresentNames cs vs).length (opresentNames cs vs)) then some (.record vs) else none
        else (openAll D f cs vs cs vs).map .record
  | .of _ a t, x =>
    match innerItems a x with
    | none => none
    | some xs =>
      match mapOpt (odecT D f t) xs with
      | none => none
      | some vs => some (.list (.ofList vs))
  | .choice a cs, x =>
    match a.tags with
    | [] => odecAlt D f cs 0 x
    | _ :: _ =>
      match unwrap a.tags.reverse x with
      | none => none
      | some y =>
        match readTLV y.content with
        | none => none
        | some (z, _) => odecAlt D f cs 0 z
  | .bad _, _ => none
def odecComps (D : Registry) (f : Ty → Bytes → Option OVal) : Comps → List TLV → Option OVals
  | .nil, [] => some .nil
  | .nil, _ :: _ => none
  | .cons fld _ cs, [] =>
    match fld.mode.missing, odecComps D f cs [] with
    | some v, some vs => some (.cons (.leaf v) vs)
    | _, _ => none
  | .cons fld t cs, x :: xs =>
    if fld.mode.isReq || t.matches x || (t.anyLike && !cs.windowMatches x) then
      match odecT D f t x, odecComps D f cs xs with
      | some v, some vs => some (.cons v vs)
      | _, _ => none
    else
      match fld.mode.missing, odecComps D f cs (x :: xs) with
      | some v, some vs => some (.cons (.leaf v) vs)
      | _, _ => none
def odecSet (D : Registry) (f : Ty → Bytes → Option OVal) : Comps → List TLV → Option OVals
  | .nil, _ => some .nil
  | .cons fld t cs, xs =>
    match mapOpt (odecT D f t) (xs.filter t.matches), odecSet D f cs xs with
    | some ws, some vs =>
      match ws.getLast? with
      | some w => some (.cons w vs)
      | none => match fld.mode.missing with
        | some w => some (.cons (.leaf w) vs)
        | none => none
    | _, _ => none
def odecAlt (D : Registry) (f : Ty → Bytes → Option OVal) : Comps → Nat → TLV → Option OVal
  | .nil, _, _ => none
  | .cons _ t cs, i, x =>
    if t.matches x then
      match odecT D f t x with
      | some v => some (.alt i v)
      | none => none
    else odecAlt D f cs (i + 1) x
end

/-- `decode(b, asn1Spec=t, decodeOpenTypes=True)`; `fuel` bounds the nesting of open types within
each other. -/
def odecode (D : Registry) : Nat → Ty → Bytes → Option (OVal × Bytes)
  | 0, _, _ => none
  | fuel + 1, t, b =>
    match readTLV b with
    | none => none
    | some (x, rest) =>
      match odecT D (fun u c => (odecode D fuel u c).map Prod.fst) t x with
      | none => none
      | some v => some (v, rest)

/-! ## Encoder -/

mutual
/-- The ordinary value, if nothing in it is an opened field. -/
def OVal.plain? : OVal → Option Val
  | .leaf v => some v
  | .record vs => vs.plain?.map .record
  | .list vs => vs.plain?.map .list
  | .alt i v => v.plain?.map (.alt i)
  | .opened _ _ => none
def OVals.plain? : OVals → Option Vals
  | .nil => some .nil
  | .cons v vs =>
    match v.plain?, vs.plain? with
    | some w, some ws => some (.cons w ws)
    | _, _ => none
end

/-- `wrapType.isSameTypeWith(component)`: same tags and same constraints. -/
def sameType (t u : Ty) : Bool := decide (t.tags = u.tags) && decide (t.attrs.spec = u.attrs.spec)

/-- An opened field: the encoded contents are put into the field, unless field and contents have
the "same type". -/
def putOpen (t u : Ty) (chunk : Bytes) : Option Bytes :=
  if sameType t u then some chunk else encode t (.octets chunk)

def osetKey : Ty → OVal → TagSet
  | t, .leaf v => setKey t v
  | .choice a cs, .alt i _ =>
    if a.tags.isEmpty then match cs.get? i with
      | some (_, t) => t.tags
      | none => []
    else a.tags
  | _, .opened u _ => u.tags
  | t, _ => t.tags

mutual
/-- As `enc`, on values with opened fields.  `u` is the type of the contents of the field. -/
def oenc (ine : Bool) : Ty → OVal → Option Bytes
  | t, .leaf v => enc ine t v
  | .seq isSet a cs, .record vs =>
    if a.spec.ok (.mapping (opresentNames cs vs).length (opresentNames cs vs)) then
      match oencComps cs vs with
      | none => none
      | some ps =>
        let ps := if isSet then sortBy tagsLe Prod.fst ps else ps
        let content := ps.flatMap Prod.snd
        if ine && content.isEmpty then some [] else wrap true a.tags content
    else none
  | .of isSet a t, .list vs =>
    if a.spec.ok (.mapping vs.length []) then
      match oencElems ine t vs with
      | none => none
      | some cs =>
        let cs := if isSet then sortChunks cs else cs
        let content := cs.flatMap Prod.fst
        if ine && content.isEmpty then some [] else wrap true a.tags content
    else none
  | .choice a cs, .alt i v =>
    match cs.get? i with
    | none => none
    | some (_, t) =>
      match oenc ine t v with
      | none => none
      | some content => if ine && content.isEmpty then some [] else wrap true a.tags content
  | t, .opened u v =>
    match oenc ine u v with
    | none => none
    | some chunk => putOpen t u chunk
  | _, _ => none
def oencElems (ine : Bool) (t : Ty) : OVals → Option (List (Bytes × Unit))
  | .nil => some []
  | .cons v vs =>
    match oenc ine t v, oencElems ine t vs with
    | some b, some bs => some ((b, ()) :: bs)
    | _, _ => none
def oencComps : Comps → OVals → Option (List (TagSet × Bytes))
  | .nil, .nil => some []
  | .cons f t cs, .cons v vs =>
    match oencComps cs vs with
    | none => none
    | some ps =>
      if v.isAbsent then (if f.mode.isReq then none else some ps)
      else if v.plain?.isSome && f.mode = .dflt (v.plain?.getD .absent) then some ps
      else match oenc f.mode.isOpt t v with
        | none => none
        | some b => some ((osetKey t v, b) :: ps)
  | _, _ => none
end

/-- `encode(value)`. -/
def oencode (t : Ty) (v : OVal) : Option Bytes := oenc false t v

end Asn1
end Verif
