import Verif.Asn1.Types

/-!
# The Distinguished Encoding Rules

X.690 (2008) for the types of the package, as relations between values and octets.  Nothing here
refers to the encoder or the decoder; only the types and values (`Verif/Asn1/Types.lean`) are shared.

Restricted to what a type of the package can need: no REAL, no indefinite length, fractions
of seconds only as far as pyasn1 writes them (`fractional`).  `TeletexString` is read as Latin-1, as pyasn1 does.  Which strings a string type allows
is a matter of X.680 and not repeated here.
-/

namespace Verif
namespace Der

open Asn1

abbrev Octets := List UInt8

/-- The number written with the digits `b` (taken modulo `m`) in base `m`, most significant first. -/
def number (m : Nat) (b : Octets) : Nat := b.foldl (fun n x => n * m + x.toNat % m) 0

/-- X.690 8.1.2.4.2 and 8.19.2: seven bits per octet, bit 8 set on all but the last octet, as few
octets as possible. -/
def Groups (n : Nat) (g : Octets) : Prop :=
  ∃ hi lo, g = hi ++ [lo] ∧ (∀ x ∈ hi, 128 ≤ x.toNat) ∧ lo.toNat < 128 ∧ hi.head? ≠ some 128 ∧ number 128 g = n

/-- X.690 8.1.2.2, table 1. -/
def classBits : Cls → Nat
  | .universal => 0
  | .application => 64
  | .context => 128
  | .priv => 192

/-- X.690 8.1.2: identifier octets. -/
inductive Identifier (c : Cls) (constructed : Bool) (n : Nat) : Octets → Prop
  | low : n ≤ 30 → Identifier c constructed n [UInt8.ofNat (classBits c + (if constructed then 32 else 0) + n)]
  | high (g : Octets) : 31 ≤ n → Groups n g →
      Identifier c constructed n (UInt8.ofNat (classBits c + (if constructed then 32 else 0) + 31) :: g)

/-- X.690 8.1.3, 10.1: length octets, definite form, as few as possible. -/
inductive Length (n : Nat) : Octets → Prop
  | short : n ≤ 127 → Length n [UInt8.ofNat n]
  | long (s : Octets) : 128 ≤ n → s.length ≤ 126 → s.head? ≠ some 0 → number 256 s = n →
      Length n (UInt8.ofNat (128 + s.length) :: s)

/-- X.690 8.1.1: identifier, length, contents. -/
def Element (t : Tag) (constructed : Bool) (contents b : Octets) : Prop :=
  ∃ i l, Identifier t.cls constructed t.num i ∧ Length contents.length l ∧ b = i ++ l ++ contents

/-- X.690 8.14: the tags of a type, innermost first.  What surrounds a complete encoding is
constructed. -/
def Tagged (constructed : Bool) : TagSet → Octets → Octets → Prop
  | [], contents, b => b = contents
  | t :: ts, contents, b => ∃ e, Element t constructed contents e ∧ Tagged true ts e b

/-- X.690 8.3.3: two's complement. -/
def twos : Octets → Int
  | [] => 0
  | h :: r => (if h.toNat < 128 then (h.toNat : Int) else h.toNat - 256) * 256 ^ r.length + number 256 r

/-- X.690 8.3.2: not all of the first nine bits are the same. -/
def shortest : Octets → Prop
  | h :: x :: _ => ¬ (h.toNat = 0 ∧ x.toNat < 128) ∧ ¬ (h.toNat = 255 ∧ 128 ≤ x.toNat)
  | _ => True

/-- The bits of an octet, bit 8 first. -/
def bitsOf (x : UInt8) : List Bool :=
  [x.toNat / 128 % 2 == 1, x.toNat / 64 % 2 == 1, x.toNat / 32 % 2 == 1, x.toNat / 16 % 2 == 1,
   x.toNat / 8 % 2 == 1, x.toNat / 4 % 2 == 1, x.toNat / 2 % 2 == 1, x.toNat % 2 == 1]

/-- Two lists of the same length, related element by element. -/
def each2 {α β : Type} (p : α → β → Prop) : List α → List β → Prop
  | [], [] => True
  | a :: as, b :: bs => p a b ∧ each2 p as bs
  | _, _ => False

/-- One character of a restricted string type, X.690 8.23. -/
def Character : CharKind → Char → Octets → Prop
  | .ascii, c, b => ∃ x, b = [x] ∧ x.toNat = c.toNat ∧ c.toNat < 128
  | .latin1, c, b => ∃ x, b = [x] ∧ x.toNat = c.toNat
  | .utf8, c, b => b = String.utf8EncodeChar c
  | .utf16be, c, b => ∃ x y, b = [x, y] ∧ x.toNat * 256 + y.toNat = c.toNat
  | .utf32be, c, b => ∃ x y z w, b = [x, y, z, w] ∧ ((x.toNat * 256 + y.toNat) * 256 + z.toNat) * 256 + w.toNat = c.toNat

def digit (c : Char) : Prop := '0' ≤ c ∧ c ≤ '9'

/-- X.690 11.7, 11.8: `n` digits up to the seconds, and `Z`. -/
def timestamp (n : Nat) (s : List Char) : Prop :=
  ∃ ds, s = ds ++ ['Z'] ∧ ds.length = n ∧ ∀ c ∈ ds, digit c

/-- X.690 11.7: with a fraction of a second, which has no zeros at its end.  Only fractions of at most three digits and
without any zero are counted here, since pyasn1 (0.4.8) writes others wrongly (C68). -/
def fractional (n : Nat) (s : List Char) : Prop :=
  ∃ ds fs, s = ds ++ '.' :: fs ++ ['Z'] ∧ ds.length = n ∧ (∀ c ∈ ds, digit c) ∧ fs ≠ [] ∧ fs.length ≤ 3 ∧ ∀ c ∈ fs, digit c ∧ c ≠ '0'

/-- X.690 8.2–8.7, 8.19, 8.23, 8.25, 8.26, 11.1–11.2, 11.7–11.8: contents octets.  `named`: the type has a list of
named bits. -/
def Contents (named : Bool) : Prim → Val → Octets → Prop
  | .boolean, .int i, c => (i = 0 ∧ c = [0]) ∨ (i = 1 ∧ c = [255])
  | .integer, .int i, c => c ≠ [] ∧ twos c = i ∧ shortest c
  | .enumerated, .int i, c => c ≠ [] ∧ twos c = i ∧ shortest c
  | .bitString, .bits bs, c => ∃ u body, c = u :: body ∧ u.toNat ≤ 7 ∧
      body.flatMap bitsOf = bs ++ List.replicate u.toNat false ∧ (body = [] → u = 0) ∧
      (named = true → bs.getLast? ≠ some false)
  | .octetString, .octets b, c => c = b
  | .null, .null, c => c = []
  | .oid, .oid (x :: y :: r), c => x ≤ 2 ∧ (x < 2 → y ≤ 39) ∧ ∃ gs, each2 Groups ((x * 40 + y) :: r) gs ∧ c = gs.flatten
  | .any, .octets b, c => c = b
  | .str k, .str s, c => ∃ bs, each2 (Character k) s bs ∧ c = bs.flatten
  | .utcTime, .str s, c => timestamp 12 s ∧ c.map UInt8.toNat = s.map Char.toNat
  | .generalizedTime, .str s, c => (timestamp 14 s ∨ fractional 14 s) ∧ c.map UInt8.toNat = s.map Char.toNat
  | _, _, _ => False

/-- The integer is not `-2^(8m+7)` for any `m`. -/
def notEdge (i : Int) : Prop := ∀ m : Nat, i ≠ -(128 * 256 ^ m)

/-- The primitive values that pyasn1 (0.4.8) gets right.  Wrong are: integers `-2^(8m+7)` (one octet
too many), named bits with trailing zeros (not removed), times not in the form DER asks for (accepted as
they are), and characters beyond U+FFFF in a BMPString (written as two). -/
def careful (named : Bool) : Prim → Val → Prop
  | .integer, .int i => notEdge i
  | .enumerated, .int i => notEdge i
  | .bitString, .bits bs => named = true → bs.getLast? ≠ some false
  | .str .utf16be, .str s => ∀ c ∈ s, c.toNat < 65536
  | .utcTime, .str s => timestamp 12 s
  | .generalizedTime, .str s => timestamp 14 s ∨ fractional 14 s
  | _, _ => True

/-- X.690 11.6: ascending, the shorter one padded with zeros. -/
def notAfter : Octets → Octets → Prop
  | [], _ => True
  | a :: as, [] => a = 0 ∧ notAfter as []
  | a :: as, b :: bs => a.toNat < b.toNat ∨ (a = b ∧ notAfter as bs)

/-- X.690 10.3, X.680 8.6: the first tag of the one is before the first tag of the other, by class
and then by number. -/
def tagBefore (a b : Octets) : Prop :=
  ∃ c k n r c' k' n' r', (∃ i, Identifier c k n i ∧ a = i ++ r) ∧ (∃ i, Identifier c' k' n' i ∧ b = i ++ r') ∧
    (classBits c < classBits c' ∨ (c = c' ∧ n < n'))

/-- The elements `fs` are those of `es`, in the order `before`. -/
def Arranged (before : Octets → Octets → Prop) (es fs : List Octets) : Prop := fs.Perm es ∧ fs.Pairwise before

mutual
/-- `b` is the encoding of the value in DER. -/
def encodes : Ty → Val → Octets → Prop
  | .prim k a, v, b => ∃ c, Contents (!a.named.isEmpty) k v c ∧ Tagged (k == .any) a.tags c b
  | .seq isSet a cs, .record vs, b => ∃ es fs, components cs vs es ∧
      (if isSet then Arranged tagBefore es fs else fs = es) ∧ Tagged true a.tags fs.flatten b
  | .of isSet a t, .list vs, b => ∃ es fs, each2 (encodes t) vs.toList es ∧
      (if isSet then Arranged notAfter es fs else fs = es) ∧ Tagged true a.tags fs.flatten b
  | .choice a cs, .alt i v, b => ∃ c, alternative cs i v c ∧ Tagged true a.tags c b
  | _, _, _ => False
/-- The encodings of the components that are present and differ from their default (11.5). -/
def components : Comps → Vals → List Octets → Prop
  | .nil, .nil, es => es = []
  | .cons f t cs, .cons v vs, es =>
    match f.mode with
    | .req => ∃ e es', es = e :: es' ∧ encodes t v e ∧ components cs vs es'
    | .opt => (v = .absent ∧ components cs vs es) ∨
        (v ≠ .absent ∧ ∃ e es', es = e :: es' ∧ encodes t v e ∧ components cs vs es')
    | .dflt d => (v = d ∧ components cs vs es) ∨
        (v ≠ d ∧ ∃ e es', es = e :: es' ∧ encodes t v e ∧ components cs vs es')
  | _, _, _ => False
def alternative : Comps → Nat → Val → Octets → Prop
  | .cons _ t _, 0, v, b => encodes t v b
  | .cons _ _ cs, i + 1, v, b => alternative cs i v b
  | .nil, _, _, _ => False
end

mutual
/-- Every primitive value in it, apart from those equal to their default, is one that pyasn1 gets right. -/
def care : Ty → Val → Prop
  | .prim k a, v => careful (!a.named.isEmpty) k v
  | .seq _ _ cs, .record vs => cares cs vs
  | .of _ _ t, .list vs => ∀ v ∈ vs.toList, care t v
  | .choice _ cs, .alt i v => careAlt cs i v
  | _, _ => True
def cares : Comps → Vals → Prop
  | .cons f t cs, .cons v vs =>
    (match f.mode with
     | .req => care t v
     | .opt => v = .absent ∨ care t v
     | .dflt d => v = d ∨ care t v) ∧ cares cs vs
  | _, _ => True
def careAlt : Comps → Nat → Val → Prop
  | .cons _ t _, 0, v => care t v
  | .cons _ _ cs, i + 1, v => careAlt cs i v
  | .nil, _, _ => True
end

end Der
end Verif
