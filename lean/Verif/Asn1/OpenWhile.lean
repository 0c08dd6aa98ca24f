import Verif.Asn1.Open

/-!
# Decoding with open types while the dictionaries change

As `Open.lean` (pyasn1 0.4.8, `codec/ber/decoder.py`, `SequenceOrSequenceOfDecoder.valueDecoder`), for a decoder that runs while
other threads add to the dictionaries.  The decoder looks into a dictionary once for every open type field.  `L m k r` says that
a look at the key `k` of the dictionary `m` may give `r`; two looks at the same key may differ.
-/

namespace Verif
namespace Asn1

/-- The possible results of a computation; `none` is an exception. -/
abbrev Nd (α : Type) := Option α → Prop

namespace Nd

def ret {α : Type} (a : α) : Nd α := fun r => r = some a

def fail {α : Type} : Nd α := fun r => r = none

def bind {α β : Type} (p : Nd α) (k : α → Nd β) : Nd β := fun r => (p none ∧ r = none) ∨ ∃ a, p (some a) ∧ k a r

/-- A computation with one result. -/
def lift {α : Type} (o : Option α) : Nd α := fun r => r = o

def map {α β : Type} (f : α → Nd β) : List α → Nd (List β)
  | [] => ret []
  | x :: xs => bind (f x) (fun y => bind (map f xs) (fun ys => ret (y :: ys)))

end Nd

/-- What a look into a dictionary may give. -/
abbrev Looks := Ident → Val → Nd Ty

/-- As `openOne`. -/
def wopenOne (F : Ty → Bytes → Nd OVal) (u : Ty) : OVal → Nd OVal
  | .leaf (.octets b) => (F u b).bind (fun w => .ret (.opened u w))
  | _ => .fail

/-- As `openVal`. -/
def wopenVal (F : Ty → Bytes → Nd OVal) (u : Ty) : OVal → Nd OVal
  | .list vs => (Nd.map (wopenOne F u) vs.toList).bind (fun ws => .ret (.list (.ofList ws)))
  | v => wopenOne F u v

/-- What is done with the result of the look. -/
def wopenLook (F : Ty → Bytes → Nd OVal) (v : OVal) : Option Ty → Nd OVal
  | none => .ret v
  | some u => wopenVal F u v

/-- As `openField`. -/
def wopenField (L : Looks) (F : Ty → Bytes → Nd OVal) (cs : Comps) (vs : OVals) (fld : Field) (v : OVal) : Nd OVal :=
  match fld.openType with
  | none => .ret v
  | some ot =>
    if fld.mode.isOpt && v.isAbsent then .ret v
    else match governor ot.governor cs vs with
      | none => .fail
      | some g => fun r => ∃ o, L ot.map g o ∧ wopenLook F v o r

/-- As `openAll`. -/
def wopenAll (L : Looks) (F : Ty → Bytes → Nd OVal) (cs : Comps) (vs : OVals) : Comps → OVals → Nd OVals
  | .cons fld _ cs', .cons v vs' =>
    (wopenField L F cs vs fld v).bind (fun w => (wopenAll L F cs vs cs' vs').bind (fun ws => .ret (.cons w ws)))
  | _, _ => .ret .nil

/-- The open type fields are decoded after the components. -/
def wfinish (L : Looks) (F : Ty → Bytes → Nd OVal) (a : Attrs) (cs : Comps) (vs : OVals) : Nd OVal :=
  if cs.noOpen then
    if a.spec.ok (.mapping (opresentNames cs vs).length (opresentNames cs vs)) then .ret (.record vs) else .fail
  else (wopenAll L F cs vs cs vs).bind (fun ws => .ret (.record ws))

/-- The last occurrence, if there is one. -/
def wlast (fld : Field) (ws : List OVal) (vs : OVals) : Nd OVals :=
  match ws.getLast? with
  | some w => .ret (.cons w vs)
  | none => match fld.mode.missing with
    | some w => .ret (.cons (.leaf w) vs)
    | none => .fail

mutual
/-- As `odecT`. -/
def wdecT (L : Looks) (F : Ty → Bytes → Nd OVal) : Ty → TLV → Nd OVal
  | .prim k a, x => .lift ((decPrimT k a x).map .leaf)
  | .seq isSet a cs, x =>
    (Nd.lift (innerItems a x)).bind (fun xs =>
      (if isSet then (if xs.all cs.matches then wdecSet L F cs xs else .fail) else wdecComps L F cs xs).bind (fun vs =>
        wfinish L F a cs vs))
  | .of _ a t, x =>
    (Nd.lift (innerItems a x)).bind (fun xs => (Nd.map (wdecT L F t) xs).bind (fun vs => .ret (.list (.ofList vs))))
  | .choice a cs, x =>
    match a.tags with
    | [] => wdecAlt L F cs 0 x
    | _ :: _ =>
      (Nd.lift ((unwrap a.tags.reverse x).bind (fun y => readTLV y.content))).bind (fun z => wdecAlt L F cs 0 z.1)
  | .bad _, _ => .fail
/-- As `odecComps`. -/
def wdecComps (L : Looks) (F : Ty → Bytes → Nd OVal) : Comps → List TLV → Nd OVals
  | .nil, [] => .ret .nil
  | .nil, _ :: _ => .fail
  | .cons fld _ cs, [] =>
    (Nd.lift fld.mode.missing).bind (fun v => (wdecComps L F cs []).bind (fun vs => .ret (.cons (.leaf v) vs)))
  | .cons fld t cs, x :: xs =>
    if fld.mode.isReq || t.matches x || (t.anyLike && !cs.windowMatches x) then
      (wdecT L F t x).bind (fun v => (wdecComps L F cs xs).bind (fun vs => .ret (.cons v vs)))
    else
      (Nd.lift fld.mode.missing).bind (fun v => (wdecComps L F cs (x :: xs)).bind (fun vs => .ret (.cons (.leaf v) vs)))
/-- As `odecSet`. -/
def wdecSet (L : Looks) (F : Ty → Bytes → Nd OVal) : Comps → List TLV → Nd OVals
  | .nil, _ => .ret .nil
  | .cons fld t cs, xs =>
    (Nd.map (wdecT L F t) (xs.filter t.matches)).bind (fun ws => (wdecSet L F cs xs).bind (fun vs => wlast fld ws vs))
/-- As `odecAlt`. -/
def wdecAlt (L : Looks) (F : Ty → Bytes → Nd OVal) : Comps → Nat → TLV → Nd OVal
  | .nil, _, _ => .fail
  | .cons _ t cs, i, x =>
    if t.matches x then (wdecT L F t x).bind (fun v => .ret (.alt i v))
    else wdecAlt L F cs (i + 1) x
end

/-- `decode(b, asn1Spec=t, decodeOpenTypes=True)` while the dictionaries change; `fuel` as in `odecode`. -/
def wdecode (L : Looks) : Nat → Ty → Bytes → Nd (OVal × Bytes)
  | 0, _, _ => .fail
  | fuel + 1, t, b =>
    (Nd.lift (readTLV b)).bind (fun x =>
      (wdecT L (fun u c => (wdecode L fuel u c).bind (fun p => .ret p.1)) t x.1).bind (fun v => .ret (v, x.2)))

end Asn1
end Verif
