import Verif.Asn1.Types

/-!
# The DER codec that interprets the schema objects

`pyasn1.codec.der.encoder` and `pyasn1.codec.der.decoder` restricted to the
calls the package, its tools and its users make: `encode(value)` and
`decode(substrate, asn1Spec=spec)`.  pyasn1 is a dependency (not in /repo); the
simplifications are listed in DESIGN.md, "Environment model".
-/

namespace Verif
namespace Asn1

abbrev Bytes := List UInt8

/-! ## Numbers -/

/-- Big-endian value of a byte string. -/
def beNat : Bytes → Nat → Nat
  | [], acc => acc
  | b :: bs, acc => beNat bs (acc * 256 + b.toNat)

/-- The `n` low-order bytes of `v`, most significant first. -/
def beBytes : Nat → Nat → Bytes
  | 0, _ => []
  | n + 1, v => beBytes n (v / 256) ++ [UInt8.ofNat (v % 256)]

/-- `int.bit_length()` of a natural number. -/
def bitLen (n : Nat) : Nat := if n = 0 then 0 else n.log2 + 1

/-- Contents octets of INTEGER (`pyasn1.compat.integer.to_bytes(v, signed=True)`). -/
def encInt (v : Int) : Bytes :=
  let n := bitLen v.natAbs / 8 + 1
  beBytes n (v % (256 ^ n : Nat)).toNat

/-- `integer.from_bytes(head, signed=True)`; empty contents mean 0. -/
def decInt (b : Bytes) : Int :=
  match b with
  | [] => 0
  | h :: _ =>
    let u := beNat b 0
    if h.toNat < 128 then u else (u : Int) - (256 ^ b.length : Nat)

/-- High-order groups of a base-128 number, each with the continuation bit. -/
def b128Hi : Nat → Nat → Bytes
  | 0, _ => []
  | fuel + 1, n => if n = 0 then [] else b128Hi fuel (n / 128) ++ [UInt8.ofNat (128 + n % 128)]

/-- Base-128 big-endian with continuation bits (tag numbers, OID arcs). -/
def b128 (n : Nat) : Bytes := b128Hi n (n / 128) ++ [UInt8.ofNat (n % 128)]

/-- Read a base-128 number. -/
def readB128 : Bytes → Nat → Option (Nat × Bytes)
  | [], _ => none
  | b :: bs, acc =>
    if b.toNat < 128 then some (acc * 128 + b.toNat, bs)
    else readB128 bs (acc * 128 + (b.toNat - 128))

/-! ## Tag and length octets -/

/-- Identifier octets (`encodeTag`); `c` is the effective format bit. -/
def encTag (cls : Cls) (c : Bool) (num : Nat) : Bytes :=
  let lead := cls.bits * 64 + (if c then 32 else 0)
  if num < 31 then [UInt8.ofNat (lead + num)]
  else UInt8.ofNat (lead + 31) :: b128 num

/-- Minimal big-endian bytes of a positive number. -/
def natBytes : Nat → Nat → Bytes
  | 0, _ => []
  | fuel + 1, n => if n = 0 then [] else natBytes fuel (n / 256) ++ [UInt8.ofNat (n % 256)]

/-- Length octets (`encodeLength`, definite mode); `none` past 126 length octets. -/
def encLen (n : Nat) : Option Bytes :=
  if n < 128 then some [UInt8.ofNat n]
  else
    let s := natBytes n n
    if s.length > 126 then none else some (UInt8.ofNat (128 + s.length) :: s)

/-- One tag-length-value element: tag, format bit, contents, and all its octets. -/
structure TLV where
  cls : Cls
  constructed : Bool
  num : Nat
  content : Bytes
  raw : Bytes
  deriving DecidableEq, Repr

/-- Read identifier octets. -/
def readTag : Bytes → Option (Cls × Bool × Nat × Bytes)
  | [] => none
  | b :: bs =>
    let cls := Cls.ofBits (b.toNat / 64)
    let c := b.toNat / 32 % 2 == 1
    let n := b.toNat % 32
    if n < 31 then some (cls, c, n, bs)
    else match readB128 bs 0 with
      | some (m, rest) => some (cls, c, m, rest)
      | none => none

/-- Read length octets; indefinite length (0x80) is refused by the DER decoder. -/
def readLen : Bytes → Option (Nat × Bytes)
  | [] => none
  | b :: bs =>
    if b.toNat < 128 then some (b.toNat, bs)
    else if b.toNat = 128 then none
    else
      let k := b.toNat - 128
      if bs.length < k then none else some (beNat (bs.take k) 0, bs.drop k)

/-- Read one element off the front of a substrate. -/
def readTLV (b : Bytes) : Option (TLV × Bytes) :=
  match readTag b with
  | none => none
  | some (cls, c, n, r) =>
    match readLen r with
    | none => none
    | some (len, r) =>
      if r.length < len then none
      else some (⟨cls, c, n, r.take len, b.take (b.length - (r.length - len))⟩, r.drop len)

/-- Split a contents string into elements (`fuel` ≥ number of bytes). -/
def parseTLVs : Nat → Bytes → Option (List TLV)
  | _, [] => some []
  | 0, _ :: _ => none
  | fuel + 1, b :: bs =>
    match readTLV (b :: bs) with
    | none => none
    | some (x, rest) =>
      match parseTLVs fuel rest with
      | none => none
      | some xs => some (x :: xs)

/-- Split a contents string into elements. -/
def items (b : Bytes) : Option (List TLV) := parseTLVs b.length b

/-! ## Contents octets of the primitive types -/

/-- A Unicode scalar value, if `n` is one. -/
def mkChar (n : Nat) : Option Char := if n.isValidChar then some (Char.ofNat n) else none

/-- One character in each encoding; `none` where `str.encode` raises. -/
def encChar : CharKind → Char → Option Bytes
  | .ascii, c => if c.toNat < 128 then some [UInt8.ofNat c.toNat] else none
  | .latin1, c => if c.toNat < 256 then some [UInt8.ofNat c.toNat] else none
  | .utf8, c => some (String.utf8EncodeChar c)
  | .utf16be, c =>
    let n := c.toNat
    if n < 65536 then some (beBytes 2 n)
    else some (beBytes 2 (55296 + (n - 65536) / 1024) ++ beBytes 2 (56320 + (n - 65536) % 1024))
  | .utf32be, c => some (beBytes 4 c.toNat)

/-- `str.encode(encoding)`. -/
def encStr (k : CharKind) : List Char → Option Bytes
  | [] => some []
  | c :: cs => match encChar k c, encStr k cs with
    | some a, some b => some (a ++ b)
    | _, _ => none

def decAscii : Bytes → Option (List Char)
  | [] => some []
  | b :: bs => if b.toNat < 128 then (decAscii bs).map (Char.ofNat b.toNat :: ·) else none

def decLatin1 : Bytes → List Char
  | [] => []
  | b :: bs => Char.ofNat b.toNat :: decLatin1 bs

/-- A UTF-8 continuation byte's six bits. -/
def cont (b : UInt8) : Option Nat :=
  if 128 ≤ b.toNat ∧ b.toNat < 192 then some (b.toNat - 128) else none

/-- First character of a UTF-8 string (strict: no overlong forms, no surrogates). -/
def utf8Head : Bytes → Option (Char × Bytes)
  | b0 :: bs =>
    if b0.toNat < 128 then some (Char.ofNat b0.toNat, bs)
    else if b0.toNat < 192 then none
    else if b0.toNat < 224 then
      match bs with
      | b1 :: bs =>
        match cont b1 with
        | some x =>
          let n := (b0.toNat - 192) * 64 + x
          if n < 128 then none else (mkChar n).map (·, bs)
        | none => none
      | _ => none
    else if b0.toNat < 240 then
      match bs with
      | b1 :: b2 :: bs =>
        match cont b1, cont b2 with
        | some x, some y =>
          let n := (b0.toNat - 224) * 4096 + x * 64 + y
          if n < 2048 then none else (mkChar n).map (·, bs)
        | _, _ => none
      | _ => none
    else
      match bs with
      | b1 :: b2 :: b3 :: bs =>
        match cont b1, cont b2, cont b3 with
        | some x, some y, some z =>
          let n := (b0.toNat - 240) * 262144 + x * 4096 + y * 64 + z
          if n < 65536 then none else (mkChar n).map (·, bs)
        | _, _, _ => none
      | _ => none
  | [] => none

/-- First character of a UTF-16-BE string. -/
def utf16Head : Bytes → Option (Char × Bytes)
  | b0 :: b1 :: bs =>
    let hi := b0.toNat * 256 + b1.toNat
    if 55296 ≤ hi ∧ hi < 56320 then
      match bs with
      | b2 :: b3 :: bs =>
        let lo := b2.toNat * 256 + b3.toNat
        if 56320 ≤ lo ∧ lo < 57344 then
          (mkChar (65536 + (hi - 55296) * 1024 + (lo - 56320))).map (·, bs)
        else none
      | _ => none
    else (mkChar hi).map (·, bs)
  | _ => none

/-- First character of a UTF-32-BE string. -/
def utf32Head : Bytes → Option (Char × Bytes)
  | b0 :: b1 :: b2 :: b3 :: bs => (mkChar (beNat [b0, b1, b2, b3] 0)).map (·, bs)
  | _ => none

/-- Decode character by character (`fuel` ≥ number of bytes). -/
def decChars (head : Bytes → Option (Char × Bytes)) : Nat → Bytes → Option (List Char)
  | _, [] => some []
  | 0, _ :: _ => none
  | fuel + 1, b :: bs =>
    match head (b :: bs) with
    | none => none
    | some (c, rest) => (decChars head fuel rest).map (c :: ·)

/-- `bytes.decode(encoding)`. -/
def decStr : CharKind → Bytes → Option (List Char)
  | .ascii, b => decAscii b
  | .latin1, b => some (decLatin1 b)
  | .utf8, b => decChars utf8Head b.length b
  | .utf16be, b => decChars utf16Head b.length b
  | .utf32be, b => decChars utf32Head b.length b

/-- Value of a group of bits, most significant first. -/
def bitsNat : List Bool → Nat → Nat
  | [], acc => acc
  | b :: bs, acc => bitsNat bs (acc * 2 + (if b then 1 else 0))

/-- The `n` low-order bits of `v`, most significant first. -/
def natBits : Nat → Nat → List Bool
  | 0, _ => []
  | n + 1, v => natBits n (v / 2) ++ [v % 2 == 1]

/-- Pack bits into octets; `fuel` ≥ number of bits.  The last octet is padded with zero bits. -/
def packBits : Nat → List Bool → Bytes
  | _, [] => []
  | 0, _ :: _ => []
  | fuel + 1, b :: bs =>
    let g := (b :: bs).take 8
    UInt8.ofNat (bitsNat (g ++ List.replicate (8 - g.length) false) 0) :: packBits fuel ((b :: bs).drop 8)

/-- All bits of an octet string. -/
def unpackBits : Bytes → List Bool
  | [] => []
  | b :: bs => natBits 8 b.toNat ++ unpackBits bs

/-- Contents of BIT STRING: count of padding bits, then the packed bits. -/
def encBits (bs : List Bool) : Bytes :=
  UInt8.ofNat ((8 - bs.length % 8) % 8) :: packBits bs.length bs

def decBits : Bytes → Option (List Bool)
  | [] => none
  | p :: bs =>
    if p.toNat > 7 then none
    else if 8 * bs.length < p.toNat then none
    else some ((unpackBits bs).take (8 * bs.length - p.toNat))

/-- First two arcs merged into one number; `none` where the encoder raises. -/
def mergeArcs : List Nat → Option (List Nat)
  | 0 :: y :: r => if y ≤ 39 then some (y :: r) else none
  | 1 :: y :: r => if y ≤ 39 then some ((y + 40) :: r) else none
  | 2 :: y :: r => some ((y + 80) :: r)
  | _ => none

/-- Contents of OBJECT IDENTIFIER. -/
def encOid (arcs : List Nat) : Option Bytes := (mergeArcs arcs).map (·.flatMap b128)

/-- Sub-identifiers; a leading 0x80 octet is refused. -/
def readArcs : Nat → Bytes → Option (List Nat)
  | _, [] => some []
  | 0, _ :: _ => none
  | fuel + 1, b :: bs =>
    if b.toNat = 128 then none
    else match readB128 (b :: bs) 0 with
      | none => none
      | some (n, rest) => (readArcs fuel rest).map (n :: ·)

def splitArcs : List Nat → Option (List Nat)
  | [] => none
  | x :: r => if x < 40 then some (0 :: x :: r) else if x < 80 then some (1 :: (x - 40) :: r) else some (2 :: (x - 80) :: r)

def decOid (b : Bytes) : Option (List Nat) :=
  match readArcs b.length b with
  | some l => splitArcs l
  | none => none

/-- What `TimeEncoderMixIn.encodeValue` does to a time with a `.`: zeros among the four characters after the first `.`
are deleted, from the last one back to the nearest `.`, and then that `.` itself if a `Z` follows it. -/
def trimTime (s : List Char) : List Char :=
  match s.dropWhile (· != '.') with
  | [] => s
  | _ :: post =>
    let w := (post.take 4).reverse
    let head := s.takeWhile (· != '.') ++ '.' :: (w.dropWhile (· != '.')).reverse
    let tail := (w.takeWhile (· != '.')).reverse.filter (· != '0') ++ post.drop 4
    if tail.head? = some 'Z' then head.dropLast ++ tail else head ++ tail

/-- The checks the DER encoder applies to time values (`TimeEncoderMixIn`). -/
def timeOk (lo hi : Nat) (s : List Char) : Bool :=
  s.all (fun c => c != '+' && c != '-' && c != ',') && s.getLast? == some 'Z'
    && lo < (trimTime s).length && (trimTime s).length < hi

/-- Contents octets of a primitive value. -/
def encPrim : Prim → Val → Option Bytes
  | .boolean, .int i => some (if i = 0 then [0] else [255])
  | .integer, .int i => some (encInt i)
  | .enumerated, .int i => some (encInt i)
  | .bitString, .bits bs => some (encBits bs)
  | .octetString, .octets b => some b
  | .null, .null => some []
  | .oid, .oid a => encOid a
  | .any, .octets b => some b
  | .str k, .str s => encStr k s
  | .utcTime, .str s => if timeOk 10 14 s then encStr .ascii (trimTime s) else none
  | .generalizedTime, .str s => if timeOk 12 20 s then encStr .ascii (trimTime s) else none
  | _, _ => none

/-- Value of primitive contents octets. -/
def decPrim : Prim → Bytes → Option Val
  | .boolean, b => if b = [0] then some (.int 0) else if b = [255] then some (.int 1) else none
  | .integer, b => some (.int (decInt b))
  | .enumerated, b => some (.int (decInt b))
  | .bitString, b => (decBits b).map .bits
  | .octetString, b => some (.octets b)
  | .null, b => if b.isEmpty then some .null else none
  | .oid, b => (decOid b).map .oid
  | .any, b => some (.octets b)
  | .str k, b => (decStr k b).map .str
  | .utcTime, b => (decAscii b).map .str
  | .generalizedTime, b => (decAscii b).map .str

/-! ## Encoder -/

/-- `List.mapM` on `Option`, as a structural recursion. -/
def mapOpt {α β : Type} (f : α → Option β) : List α → Option (List β)
  | [] => some []
  | x :: xs =>
    match f x, mapOpt f xs with
    | some y, some ys => some (y :: ys)
    | _, _ => none

/-- One tag-length-value around `content`. -/
def tlv (t : Tag) (isC : Bool) (content : Bytes) : Option Bytes :=
  (encLen content.length).map (fun l => encTag t.cls (t.constructed || isC) t.num ++ (l ++ content))

/-- Wrap in every tag of the tag set, innermost first. -/
def wrap (isC : Bool) : TagSet → Bytes → Option Bytes
  | [], b => some b
  | t :: ts, b => (tlv t isC b).bind (wrap isC ts)

/-- Stable insertion by key. -/
def insertBy {α β : Type} (le : β → β → Bool) (key : α → β) (x : α) : List α → List α
  | [] => [x]
  | y :: ys => if le (key x) (key y) then x :: y :: ys else y :: insertBy le key x ys

/-- Stable sort (`list.sort(key=...)`). -/
def sortBy {α β : Type} (le : β → β → Bool) (key : α → β) : List α → List α
  | [] => []
  | x :: xs => insertBy le key x (sortBy le key xs)

/-- Lexicographic order on byte strings (shorter first on ties). -/
def bytesLe : Bytes → Bytes → Bool
  | [], _ => true
  | _ :: _, [] => false
  | a :: as, b :: bs => a.toNat < b.toNat || (a.toNat == b.toNat && bytesLe as bs)

/-- `x.ljust(n, zero)`. -/
def ljust (n : Nat) (b : Bytes) : Bytes := b ++ List.replicate (n - b.length) 0

def maxLen (cs : List Bytes) : Nat := cs.foldr (fun c m => max c.length m) 0

/-- DER SET OF: sort pairs by zero-padded encoding. -/
def sortChunks {α : Type} (cs : List (Bytes × α)) : List (Bytes × α) :=
  let n := maxLen (cs.map Prod.fst)
  sortBy bytesLe (fun p => ljust n p.1) cs

/-- Lexicographic order on tag sets, by class and number. -/
def tagsLe : TagSet → TagSet → Bool
  | [], _ => true
  | _ :: _, [] => false
  | a :: as, b :: bs =>
    let ka := (a.cls.bits, a.num)
    let kb := (b.cls.bits, b.num)
    ka.1 < kb.1 || (ka.1 == kb.1 && (ka.2 < kb.2 || (ka.2 == kb.2 && tagsLe as bs)))

def Comps.get? : Comps → Nat → Option (Field × Ty)
  | .nil, _ => none
  | .cons f t _, 0 => some (f, t)
  | .cons _ _ cs, n + 1 => cs.get? n

/-- Sort key of a SET component (`SetEncoder._componentSortKey`): its tag set,
or for an untagged CHOICE the tag set of the chosen alternative. -/
def setKey : Ty → Val → TagSet
  | .choice a cs, .alt i _ =>
    if a.tags.isEmpty then match cs.get? i with
      | some (_, t) => t.tags
      | none => []
    else a.tags
  | t, _ => t.tags

/-- Names of the components that are set. -/
def presentNames : Comps → Vals → List String
  | .cons f _ cs, .cons v vs => if v = .absent then presentNames cs vs else f.name :: presentNames cs vs
  | _, _ => []

def Mode.isOpt : Mode → Bool
  | .opt => true
  | _ => false

def Mode.isReq : Mode → Bool
  | .req => true
  | _ => false

mutual
/-- `encode(value)`.  `ine` is the encoder's `ifNotEmpty` option: inside an
OPTIONAL component an empty constructed value is not emitted at all. -/
def enc (ine : Bool) : Ty → Val → Option Bytes
  | .prim k a, v => (encPrim k v).bind (wrap false a.tags)
  | .seq isSet a cs, .record vs =>
    if a.spec.ok (.mapping (presentNames cs vs).length (presentNames cs vs)) then
      match encComps cs vs with
      | none => none
      | some ps =>
        let ps := if isSet then sortBy tagsLe Prod.fst ps else ps
        let content := ps.flatMap Prod.snd
        if ine && content.isEmpty then some [] else wrap true a.tags content
    else none
  | .of isSet a t, .list vs =>
    if a.spec.ok (.mapping vs.length []) then
      match mapOpt (fun v => (enc ine t v).map (fun b => (b, v))) vs.toList with
      | none => none
      | some ps =>
        let ps := if isSet then sortChunks ps else ps
        let content := ps.flatMap Prod.fst
        if ine && content.isEmpty then some [] else wrap true a.tags content
    else none
  | .choice a cs, .alt i v =>
    match encAlt ine cs i v with
    | none => none
    | some content => if ine && content.isEmpty then some [] else wrap true a.tags content
  | _, _ => none
/-- Components of a SEQUENCE or SET, each with its sort key. -/
def encComps : Comps → Vals → Option (List (TagSet × Bytes))
  | .nil, .nil => some []
  | .cons f t cs, .cons v vs =>
    match encComps cs vs with
    | none => none
    | some ps =>
      match f.mode, v with
      | .req, .absent => none
      | .opt, .absent => some ps
      | .dflt _, .absent => some ps
      | m, v =>
        if m = .dflt v then some ps
        else match enc m.isOpt t v with
          | none => none
          | some b => some ((setKey t v, b) :: ps)
  | _, _ => none
/-- The chosen alternative of a CHOICE. -/
def encAlt (ine : Bool) : Comps → Nat → Val → Option Bytes
  | .cons _ t _, 0, v => enc ine t v
  | .cons _ _ cs, i + 1, v => encAlt ine cs i v
  | .nil, _, _ => none
end

/-- `der.encoder.encode(value)`. -/
def encode (t : Ty) (v : Val) : Option Bytes := enc false t v

/-! ## Decoder -/

/-- The element carries the tag (class and number). -/
def TLV.has (x : TLV) (t : Tag) : Bool := x.cls == t.cls && x.num == t.num

mutual
/-- The tag could start an encoding of the type (`tagMap` lookup). -/
def Ty.matches : Ty → TLV → Bool
  | .prim k a, x =>
    match a.tags.getLast? with
    | some t => x.has t
    | none => k == .any
  | .seq _ a _, x => match a.tags.getLast? with
    | some t => x.has t
    | none => false
  | .of _ a _, x => match a.tags.getLast? with
    | some t => x.has t
    | none => false
  | .choice a cs, x => match a.tags.getLast? with
    | some t => x.has t
    | none => cs.matches x
  | .bad _, _ => false
/-- Some alternative could start with the tag. -/
def Comps.matches : Comps → TLV → Bool
  | .nil, _ => false
  | .cons _ t cs, x => t.matches x || cs.matches x
end

/-- Some component of the run of optional components starting here, or the
first mandatory one after them, could start with the tag
(`getTagMapNearPosition`). -/
def Comps.windowMatches : Comps → TLV → Bool
  | .nil, _ => false
  | .cons f t cs, x => t.matches x || (!f.mode.isReq && cs.windowMatches x)

/-- ANY types accept whatever no other candidate wants. -/
def Ty.anyLike : Ty → Bool
  | .prim .any _ => true
  | _ => false

/-- Descend through explicit tags.  The argument lists the tags outermost
first; the result is the element carrying the innermost one.  Octets after the
inner element are ignored, as in pyasn1. -/
def unwrap : List Tag → TLV → Option TLV
  | [], _ => none
  | [t], x => if x.has t then some x else none
  | t :: t' :: ts, x =>
    if x.has t && x.constructed && x.cls != .universal then
      match readTLV x.content with
      | some (y, _) => unwrap (t' :: ts) y
      | none => none
    else none

/-- The pyasn1 decoder of a primitive type applied to one element. -/
def decPrimT (k : Prim) (a : Attrs) (x : TLV) : Option Val :=
  if k == .any then
    match a.tags with
    | [t] => if x.has t then some (.octets x.content) else some (.octets x.raw)
    | _ => some (.octets x.raw)
  else
    match unwrap a.tags.reverse x with
    | none => none
    | some y =>
      if y.constructed then none
      else match decPrim k y.content with
        | none => none
        | some v => if a.spec.ok (.simple v) then some v else none

/-- Elements of the contents of a constructed element. -/
def innerItems (a : Attrs) (x : TLV) : Option (List TLV) :=
  match unwrap a.tags.reverse x with
  | none => none
  | some y => if y.constructed then items y.content else none

/-- No component is governed by an open type (`namedTypes.hasOpenTypes`). -/
def Comps.noOpen : Comps → Bool
  | .nil => true
  | .cons f _ cs => f.openType.isNone && cs.noOpen

/-- The value a missing component gets. -/
def Mode.missing : Mode → Option Val
  | .req => none
  | .opt => some .absent
  | .dflt v => some v

mutual
/-- Decode one element against a type. -/
def decT : Ty → TLV → Option Val
  | .prim k a, x => decPrimT k a x
  | .seq isSet a cs, x =>
    match innerItems a x with
    | none => none
    | some xs =>
      match (if isSet then
          (if xs.all cs.matches then decSet cs xs else none)
        else decComps cs xs) with
      | none => none
      | some vs =>
        if !cs.noOpen || a.spec.ok (.mapping (presentNames cs vs).length (presentNames cs vs)) then
          some (.record vs)
        else none
  | .of _ a t, x =>
    match innerItems a x with
    | none => none
    | some xs =>
      match mapOpt (decT t) xs with
      | none => none
      | some vs => some (.list (Vals.ofList vs))
  | .choice a cs, x =>
    match a.tags with
    | [] => decAlt cs 0 x
    | _ :: _ =>
      match unwrap a.tags.reverse x with
      | none => none
      | some y =>
        match readTLV y.content with
        | none => none
        | some (z, _) => decAlt cs 0 z
  | .bad _, _ => none
/-- Components of a SEQUENCE, in order; optional ones are skipped when the next
element does not fit. -/
def decComps : Comps → List TLV → Option Vals
  | .nil, [] => some .nil
  | .nil, _ :: _ => none
  | .cons f _ cs, [] =>
    match f.mode.missing, decComps cs [] with
    | some v, some vs => some (.cons v vs)
    | _, _ => none
  | .cons f t cs, x :: xs =>
    if f.mode.isReq || t.matches x || (t.anyLike && !cs.windowMatches x) then
      match decT t x, decComps cs xs with
      | some v, some vs => some (.cons v vs)
      | _, _ => none
    else
      match f.mode.missing, decComps cs (x :: xs) with
      | some v, some vs => some (.cons v vs)
      | _, _ => none
/-- Components of a SET: each takes the elements with its tag, the last one wins. -/
def decSet : Comps → List TLV → Option Vals
  | .nil, _ => some .nil
  | .cons f t cs, xs =>
    match mapOpt (decT t) (xs.filter t.matches), decSet cs xs with
    | some ws, some vs =>
      match ws.getLast? with
      | some w => some (.cons w vs)
      | none => match f.mode.missing with
        | some w => some (.cons w vs)
        | none => none
    | _, _ => none
/-- Alternatives of a CHOICE: the first whose tag fits. -/
def decAlt : Comps → Nat → TLV → Option Val
  | .nil, _, _ => none
  | .cons _ t cs, i, x =>
    if t.matches x then
      match decT t x with
      | some v => some (.alt i v)
      | none => none
    else decAlt cs (i + 1) x
end

/-- `der.decoder.decode(substrate, asn1Spec=t)`: the value and the unread
octets; `none` where it raises. -/
def decode (t : Ty) (b : Bytes) : Option (Val × Bytes) :=
  match readTLV b with
  | none => none
  | some (x, rest) =>
    match decT t x with
    | none => none
    | some v => some (v, rest)

end Asn1
end Verif
