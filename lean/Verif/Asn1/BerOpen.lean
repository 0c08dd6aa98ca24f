import Verif.Asn1.BerCodec
import Verif.Asn1.Open

/-!
# Open types in BER

`ber.decoder.decode(..., decodeOpenTypes=True)` as in pyasn1 0.4.8 (`codec/ber/decoder.py`,
`SequenceOrSequenceOfDecoder.valueDecoder` and `indefLenValueDecoder`).  As `odecode`, on elements of BER.  The loop over
the open type fields is there twice; in the copy for SEQUENCEs with indefinite length the octets of a field are decoded with
`allowEoo=True`, so that a field whose octets begin with the end-of-octets marker stays as it is.

Simplified: for a field that is a SET OF or SEQUENCE OF the marker object is put into the list; here such octets are decoded
as all others.
-/

namespace Verif
namespace Asn1
namespace BerOpen

/-- The octets of the field begin with the end-of-octets marker. -/
def eoo : OVal → Bool
  | .leaf (.octets b) => b.take 2 == [0, 0]
  | _ => false

/-- One step of the loop over the open type fields; `ind`: the length of the SEQUENCE or SET is indefinite. -/
def openField (D : Registry) (f : Ty → Bytes → Option OVal) (ind : Bool) (cs : Comps) (vs : OVals) (fld : Field) (v : OVal) :
    Option OVal :=
  match fld.openType with
  | none => some v
  | some ot =>
    if fld.mode.isOpt && v.isAbsent then some v
    else match governor ot.governor cs vs with
      | none => none
      | some g => match D ot.map g with
        | none => some v
        | some u => if ind && eoo v then some v else openVal f u v

/-- The loop over the open type fields. -/
def openAll (D : Registry) (f : Ty → Bytes → Option OVal) (ind : Bool) (cs : Comps) (vs : OVals) : Comps → OVals → Option OVals
  | .cons fld _ cs', .cons v vs' =>
    match openField D f ind cs vs fld v, openAll D f ind cs vs cs' vs' with
    | some w, some ws => some (.cons w ws)
    | _, _ => none
  | _, _ => some .nil

/-- The element with the components has indefinite length. -/
def innerIndef (a : Attrs) (x : Elt) : Bool :=
  match unwrapE a.tags.reverse x with
  | none => false
  | some y => y.indef

mutual
/-- As `bdecT`, with open types.  `f` decodes the octets of an open field. -/
def odecT (D : Registry) (f : Ty → Bytes → Option OVal) : Ty → Elt → Option OVal
  | .prim k a, x => (bdecPrimT k a x).map .leaf
  | .seq isSet a cs, x =>
    match innerElts a x with
    | none => none
    | some xs =>
      match (if isSet then
          (if xs.all (fun x => cs.matches x.tlv) then odecSet D f cs xs else none)
        else odecComps D f cs xs) with
      | none => none
      | some vs =>
        if cs.noOpen then
          if a.spec.ok (.mapping (opresentNames cs vs).length (opresentNames cs vs)) then some (.record vs) else none
        else (openAll D f (innerIndef a x) cs vs cs vs).map .record
  | .of _ a t, x =>
    match innerElts a x with
    | none => none
    | some xs =>
      match mapOpt (odecT D f t) xs with
      | none => none
      | some vs => some (.list (.ofList vs))
  | .choice a cs, x =>
    match a.tags with
    | [] => odecAlt D f cs 0 x
    | _ :: _ =>
      match unwrapE a.tags.reverse x with
      | none => none
      | some y =>
        match y.inner with
        | none => none
        | some z => odecAlt D f cs 0 z
  | .bad _, _ => none
def odecComps (D : Registry) (f : Ty → Bytes → Option OVal) : Comps → List Elt → Option OVals
  | .nil, [] => some .nil
  | .nil, _ :: _ => none
  | .cons fld _ cs, [] =>
    match fld.mode.missing, odecComps D f cs [] with
    | some v, some vs => some (.cons (.leaf v) vs)
    | _, _ => none
  | .cons fld t cs, x :: xs =>
    if fld.mode.isReq || t.matches x.tlv || (t.anyLike && !cs.windowMatches x.tlv) then
      match odecT D f t x, odecComps D f cs xs with
      | some v, some vs => some (.cons v vs)
      | _, _ => none
    else
      match fld.mode.missing, odecComps D f cs (x :: xs) with
      | some v, some vs => some (.cons (.leaf v) vs)
      | _, _ => none
def odecSet (D : Registry) (f : Ty → Bytes → Option OVal) : Comps → List Elt → Option OVals
  | .nil, _ => some .nil
  | .cons fld t cs, xs =>
    match mapOpt (odecT D f t) (xs.filter (fun x => t.matches x.tlv)), odecSet D f cs xs with
    | some ws, some vs =>
      match ws.getLast? with
      | some w => some (.cons w vs)
      | none => match fld.mode.missing with
        | some w => some (.cons (.leaf w) vs)
        | none => none
    | _, _ => none
def odecAlt (D : Registry) (f : Ty → Bytes → Option OVal) : Comps → Nat → Elt → Option OVal
  | .nil, _, _ => none
  | .cons _ t cs, i, x =>
    if t.matches x.tlv then
      match odecT D f t x with
      | some v => some (.alt i v)
      | none => none
    else odecAlt D f cs (i + 1) x
end

/-- `ber.decoder.decode(b, asn1Spec=t, decodeOpenTypes=True)`; `fuel` bounds the nesting of open types within each other. -/
def odecode (D : Registry) : Nat → Ty → Bytes → Option (OVal × Bytes)
  | 0, _, _ => none
  | fuel + 1, t, b =>
    match readElt b with
    | none => none
    | some (x, rest) =>
      match odecT D (fun u c => (odecode D fuel u c).map Prod.fst) t x with
      | none => none
      | some v => some (v, rest)

end BerOpen
end Asn1
end Verif
