import Verif.Asn1.Codec

/-!
# The BER codec

`pyasn1.codec.ber`, which tools/snmpget.py:12-13 imports: the encoder with its default options (definite lengths,
no chunks, snmpget.py:41), and the decoder with a schema (snmpget.py:46).  Like `Codec.lean` it follows pyasn1 0.4.8.

The encoder keeps the order of SETs and SET OFs, writes 1 for TRUE, writes times as they are and never leaves out an
empty component.  The decoder also takes indefinite lengths, strings in pieces, and any non-zero number for TRUE.

Left out, with `none` for what the decoder returns: an element of indefinite length for an ANY, pieces that are not
primitive or have another tag than the string type itself, and character strings and times in pieces.
-/

namespace Verif
namespace Asn1

/-! ## Encoder -/

/-- Contents octets of a primitive value in BER. -/
def bencPrim : Prim → Val → Option Bytes
  | .boolean, .int i => some (if i = 0 then [0] else [1])
  | .utcTime, .str s => encStr .ascii s
  | .generalizedTime, .str s => encStr .ascii s
  | k, v => encPrim k v

mutual
/-- `ber.encoder.encode(value)`: like `enc`, but nothing is sorted and nothing empty is dropped. -/
def benc : Ty → Val → Option Bytes
  | .prim k a, v => (bencPrim k v).bind (wrap false a.tags)
  | .seq _ a cs, .record vs =>
    if a.spec.ok (.mapping (presentNames cs vs).length (presentNames cs vs)) then
      match bencComps cs vs with
      | none => none
      | some ps => wrap true a.tags ps.flatten
    else none
  | .of _ a t, .list vs =>
    if a.spec.ok (.mapping vs.length []) then
      match mapOpt (benc t) vs.toList with
      | none => none
      | some ps => wrap true a.tags ps.flatten
    else none
  | .choice a cs, .alt i v =>
    match bencAlt cs i v with
    | none => none
    | some content => wrap true a.tags content
  | _, _ => none
/-- Components of a SEQUENCE or SET. -/
def bencComps : Comps → Vals → Option (List Bytes)
  | .nil, .nil => some []
  | .cons f t cs, .cons v vs =>
    match bencComps cs vs with
    | none => none
    | some ps =>
      match f.mode, v with
      | .req, .absent => none
      | .opt, .absent => some ps
      | .dflt _, .absent => some ps
      | m, v =>
        if m = .dflt v then some ps
        else match benc t v with
          | none => none
          | some b => some (b :: ps)
  | _, _ => none
/-- The chosen alternative of a CHOICE. -/
def bencAlt : Comps → Nat → Val → Option Bytes
  | .cons _ t _, 0, v => benc t v
  | .cons _ _ cs, i + 1, v => bencAlt cs i v
  | .nil, _, _ => none
end

/-- `ber.encoder.encode(value)`. -/
def berEncode (t : Ty) (v : Val) : Option Bytes := benc t v

/-! ## Reading elements -/

/-- An element with definite or indefinite length.  In the latter case `tlv.content` are the octets before the
end-of-octets marker and `tlv.raw` includes the marker. -/
structure Elt where
  tlv : TLV
  indef : Bool
  deriving DecidableEq, Repr

mutual
/-- Read one element off the front of a substrate. -/
def readE : Nat → Bytes → Option (Elt × Bytes)
  | 0, _ => none
  | fuel + 1, b =>
    match readTag b with
    | none => none
    | some (cls, c, n, r) =>
      if r.head? = some 128 then
        match untilEnd fuel r.tail with
        | none => none
        | some (content, rest) => some (⟨⟨cls, c, n, content, b.take (b.length - rest.length)⟩, true⟩, rest)
      else match readTLV b with
        | none => none
        | some (x, rest) => some (⟨x, false⟩, rest)
/-- Read elements up to the end-of-octets marker (`allowEoo=True`). -/
def untilEnd : Nat → Bytes → Option (Bytes × Bytes)
  | 0, _ => none
  | fuel + 1, b =>
    if b.take 2 = [0, 0] then some ([], b.drop 2)
    else match readE fuel b with
      | none => none
      | some (x, r) =>
        match untilEnd fuel r with
        | none => none
        | some (content, rest) => some (x.tlv.raw ++ content, rest)
end

/-- Read one element off the front of a substrate. -/
def readElt (b : Bytes) : Option (Elt × Bytes) := readE (b.length + 1) b

/-- Split a contents string into elements (`fuel` ≥ number of bytes). -/
def parseElts : Nat → Bytes → Option (List Elt)
  | _, [] => some []
  | 0, _ :: _ => none
  | fuel + 1, b :: bs =>
    match readElt (b :: bs) with
    | none => none
    | some (x, rest) =>
      match parseElts fuel rest with
      | none => none
      | some xs => some (x :: xs)

/-- Split a contents string into elements. -/
def elts (b : Bytes) : Option (List Elt) := parseElts b.length b

/-- The element inside an explicit tag: the first one if the length is definite, the only one if it is indefinite
(`ExplicitTagDecoder`, `ChoiceDecoder`). -/
def Elt.inner (x : Elt) : Option Elt :=
  if x.indef then
    match elts x.tlv.content with
    | some [y] => some y
    | _ => none
  else (readElt x.tlv.content).map Prod.fst

/-! ## Decoder -/

/-- Descend through explicit tags, as in `unwrap`. -/
def unwrapE : List Tag → Elt → Option Elt
  | [], _ => none
  | [t], x => if x.tlv.has t then some x else none
  | t :: t' :: ts, x =>
    if x.tlv.has t && x.tlv.constructed && x.tlv.cls != .universal then
      match x.inner with
      | some y => unwrapE (t' :: ts) y
      | none => none
    else none

/-- Value of primitive contents octets in BER (`BooleanDecoder`: `value and 1 or 0`). -/
def bdecPrim : Prim → Bytes → Option Val
  | .boolean, b => some (.int (if decInt b = 0 then 0 else 1))
  | k, b => decPrim k b

/-- A primitive element with the tag `[UNIVERSAL n]`. -/
def Elt.piece (n : Nat) (x : Elt) : Bool :=
  !x.indef && !x.tlv.constructed && x.tlv.has ⟨.universal, false, n⟩

/-- The value of a string in pieces (`OctetStringDecoder`, `BitStringDecoder`). -/
def joined (k : Prim) (ind : Bool) (xs : List Elt) : Option Val :=
  match k with
  | .octetString =>
    if xs.all (·.piece 4) then some (.octets (xs.flatMap (·.tlv.content))) else none
  | .bitString =>
    -- 'Empty BIT STRING substrate'
    if xs.all (·.piece 3) && (ind || !xs.isEmpty) then
      (mapOpt (fun x => decBits x.tlv.content) xs).map (fun ps => .bits ps.flatten)
    else none
  | _ => none

/-- The decoder of a primitive type applied to one element. -/
def bdecPrimT (k : Prim) (a : Attrs) (x : Elt) : Option Val :=
  if k == .any then (if x.indef then none else decPrimT .any a x.tlv)
  else
    match unwrapE a.tags.reverse x with
    | none => none
    | some y =>
      match (if y.indef || y.tlv.constructed then (elts y.tlv.content).bind (joined k y.indef)
        else bdecPrim k y.tlv.content) with
      | none => none
      | some v => if a.spec.ok (.simple v) then some v else none

/-- Elements of the contents of a constructed element. -/
def innerElts (a : Attrs) (x : Elt) : Option (List Elt) :=
  match unwrapE a.tags.reverse x with
  | none => none
  | some y => if y.tlv.constructed then elts y.tlv.content else none

mutual
/-- Decode one element against a type, as in `decT`. -/
def bdecT : Ty → Elt → Option Val
  | .prim k a, x => bdecPrimT k a x
  | .seq isSet a cs, x =>
    match innerElts a x with
    | none => none
    | some xs =>
      match (if isSet then
          (if xs.all (fun x => cs.matches x.tlv) then bdecSet cs xs else none)
        else bdecComps cs xs) with
      | none => none
      | some vs =>
        if !cs.noOpen || a.spec.ok (.mapping (presentNames cs vs).length (presentNames cs vs)) then
          some (.record vs)
        else none
  | .of _ a t, x =>
    match innerElts a x with
    | none => none
    | some xs =>
      match mapOpt (bdecT t) xs with
      | none => none
      | some vs => some (.list (Vals.ofList vs))
  | .choice a cs, x =>
    match a.tags with
    | [] => bdecAlt cs 0 x
    | _ :: _ =>
      match unwrapE a.tags.reverse x with
      | none => none
      | some y =>
        match y.inner with
        | none => none
        | some z => bdecAlt cs 0 z
  | .bad _, _ => none
/-- Components of a SEQUENCE, in order. -/
def bdecComps : Comps → List Elt → Option Vals
  | .nil, [] => some .nil
  | .nil, _ :: _ => none
  | .cons f _ cs, [] =>
    match f.mode.missing, bdecComps cs [] with
    | some v, some vs => some (.cons v vs)
    | _, _ => none
  | .cons f t cs, x :: xs =>
    if f.mode.isReq || t.matches x.tlv || (t.anyLike && !cs.windowMatches x.tlv) then
      match bdecT t x, bdecComps cs xs with
      | some v, some vs => some (.cons v vs)
      | _, _ => none
    else
      match f.mode.missing, bdecComps cs (x :: xs) with
      | some v, some vs => some (.cons v vs)
      | _, _ => none
/-- Components of a SET: each takes the elements with its tag, the last one wins. -/
def bdecSet : Comps → List Elt → Option Vals
  | .nil, _ => some .nil
  | .cons f t cs, xs =>
    match mapOpt (bdecT t) (xs.filter (fun x => t.matches x.tlv)), bdecSet cs xs with
    | some ws, some vs =>
      match ws.getLast? with
      | some w => some (.cons w vs)
      | none => match f.mode.missing with
        | some w => some (.cons w vs)
        | none => none
    | _, _ => none
/-- Alternatives of a CHOICE: the first whose tag fits. -/
def bdecAlt : Comps → Nat → Elt → Option Val
  | .nil, _, _ => none
  | .cons _ t cs, i, x =>
    if t.matches x.tlv then
      match bdecT t x with
      | some v => some (.alt i v)
      | none => none
    else bdecAlt cs (i + 1) x
end

/-- `ber.decoder.decode(substrate, asn1Spec=t)`: the value and the unread octets; `none` where it raises. -/
def berDecode (t : Ty) (b : Bytes) : Option (Val × Bytes) :=
  match readElt b with
  | none => none
  | some (x, rest) =>
    match bdecT t x with
    | none => none
    | some v => some (v, rest)

end Asn1
end Verif
