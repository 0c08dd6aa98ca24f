import Verif.Asn1.Open

/-!
# The encoder option `omitEmptyOptionals=False`

`der.encoder.encode(value, omitEmptyOptionals=False)`, as in tests/test_rfc2315.py:158.  In pyasn1 0.4.8
(`codec/ber/encoder.py`, `SequenceEncoder.encodeValue`) a SEQUENCE then leaves the option `ifNotEmpty` as it finds it
instead of setting it for its OPTIONAL components; a SET (`codec/cer/encoder.py`, `SetEncoder.encodeValue`) does not look at
`omitEmptyOptionals` and goes on setting `ifNotEmpty`.
-/

namespace Verif
namespace Asn1

mutual
/-- As `enc`, called with `omitEmptyOptionals=False`. -/
def encKeep (ine : Bool) : Ty → Val → Option Bytes
  | .prim k a, v => (encPrim k v).bind (wrap false a.tags)
  | .seq isSet a cs, .record vs =>
    if a.spec.ok (.mapping (presentNames cs vs).length (presentNames cs vs)) then
      match encKeepComps ine isSet cs vs with
      | none => none
      | some ps =>
        let ps := if isSet then sortBy tagsLe Prod.fst ps else ps
        let content := ps.flatMap Prod.snd
        if ine && content.isEmpty then some [] else wrap true a.tags content
    else none
  | .of isSet a t, .list vs =>
    if a.spec.ok (.mapping vs.length []) then
      match mapOpt (fun v => (encKeep ine t v).map (fun b => (b, v))) vs.toList with
      | none => none
      | some ps =>
        let ps := if isSet then sortChunks ps else ps
        let content := ps.flatMap Prod.fst
        if ine && content.isEmpty then some [] else wrap true a.tags content
    else none
  | .choice a cs, .alt i v =>
    match encKeepAlt ine cs i v with
    | none => none
    | some content => if ine && content.isEmpty then some [] else wrap true a.tags content
  | _, _ => none
def encKeepComps (ine isSet : Bool) : Comps → Vals → Option (List (TagSet × Bytes))
  | .nil, .nil => some []
  | .cons f t cs, .cons v vs =>
    match encKeepComps ine isSet cs vs with
    | none => none
    | some ps =>
      match f.mode, v with
      | .req, .absent => none
      | .opt, .absent => some ps
      | .dflt _, .absent => some ps
      | m, v =>
        if m = .dflt v then some ps
        else match encKeep (if isSet then m.isOpt else ine) t v with
          | none => none
          | some b => some ((setKey t v, b) :: ps)
  | _, _ => none
def encKeepAlt (ine : Bool) : Comps → Nat → Val → Option Bytes
  | .cons _ t _, 0, v => encKeep ine t v
  | .cons _ _ cs, i + 1, v => encKeepAlt ine cs i v
  | .nil, _, _ => none
end

/-- `encode(value, omitEmptyOptionals=False)`. -/
def encodeKeep (t : Ty) (v : Val) : Option Bytes := encKeep false t v

/-- As `putOpen`, with the option. -/
def putOpenKeep (t u : Ty) (chunk : Bytes) : Option Bytes :=
  if sameType t u then some chunk else encodeKeep t (.octets chunk)

mutual
/-- As `oenc`, called with `omitEmptyOptionals=False`. -/
def oencKeep (ine : Bool) : Ty → OVal → Option Bytes
  | t, .leaf v => encKeep ine t v
  | .seq isSet a cs, .record vs =>
    if a.spec.ok (.mapping (opresentNames cs vs).length (opresentNames cs vs)) then
      match oencKeepComps ine isSet cs vs with
      | none => none
      | some ps =>
        let ps := if isSet then sortBy tagsLe Prod.fst ps else ps
        let content := ps.flatMap Prod.snd
        if ine && content.isEmpty then some [] else wrap true a.tags content
    else none
  | .of isSet a t, .list vs =>
    if a.spec.ok (.mapping vs.length []) then
      match oencKeepElems ine t vs with
      | none => none
      | some cs =>
        let cs := if isSet then sortChunks cs else cs
        let content := cs.flatMap Prod.fst
        if ine && content.isEmpty then some [] else wrap true a.tags content
    else none
  | .choice a cs, .alt i v =>
    match cs.get? i with
    | none => none
    | some (_, t) =>
      match oencKeep ine t v with
      | none => none
      | some content => if ine && content.isEmpty then some [] else wrap true a.tags content
  | t, .opened u v =>
    match oencKeep ine u v with
    | none => none
    | some chunk => putOpenKeep t u chunk
  | _, _ => none
def oencKeepElems (ine : Bool) (t : Ty) : OVals → Option (List (Bytes × Unit))
  | .nil => some []
  | .cons v vs =>
    match oencKeep ine t v, oencKeepElems ine t vs with
    | some b, some bs => some ((b, ()) :: bs)
    | _, _ => none
def oencKeepComps (ine isSet : Bool) : Comps → OVals → Option (List (TagSet × Bytes))
  | .nil, .nil => some []
  | .cons f t cs, .cons v vs =>
    match oencKeepComps ine isSet cs vs with
    | none => none
    | some ps =>
      if v.isAbsent then (if f.mode.isReq then none else some ps)
      else if v.plain?.isSome && f.mode = .dflt (v.plain?.getD .absent) then some ps
      else match oencKeep (if isSet then f.mode.isOpt else ine) t v with
        | none => none
        | some b => some ((osetKey t v, b) :: ps)
  | _, _ => none
end

/-- `encode(value, omitEmptyOptionals=False)`, where open type fields have been decoded. -/
def oencodeKeep (t : Ty) (v : OVal) : Option Bytes := oencKeep false t v

end Asn1
end Verif
