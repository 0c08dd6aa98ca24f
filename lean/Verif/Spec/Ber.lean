import Verif.Spec.Der

/-!
# What is read as a value

X.690 section 8 (the Basic Encoding Rules) with definite lengths and without constructed strings, as a
relation between values and octets.  Where the decoder accepts more than that the definition says so: *lax*.
Nothing here refers to the encoder or the decoder.
-/

namespace Verif
namespace Ber

open Asn1 Der

/-- X.690 8.1.2.4.2; lax: leading zero groups. -/
def Groups (n : Nat) (g : Octets) : Prop :=
  ∃ hi lo, g = hi ++ [lo] ∧ (∀ x ∈ hi, 128 ≤ x.toNat) ∧ lo.toNat < 128 ∧ number 128 g = n

/-- X.690 8.1.2: identifier octets; lax: the long form for numbers up to 30. -/
inductive Identifier (c : Cls) (constructed : Bool) (n : Nat) : Octets → Prop
  | low : n ≤ 30 → Identifier c constructed n [UInt8.ofNat (classBits c + (if constructed then 32 else 0) + n)]
  | high (g : Octets) : Groups n g →
      Identifier c constructed n (UInt8.ofNat (classBits c + (if constructed then 32 else 0) + 31) :: g)

/-- X.690 8.1.3: length octets, definite form, not necessarily the shortest; lax: 127 subsequent octets. -/
inductive Length (n : Nat) : Octets → Prop
  | short : n ≤ 127 → Length n [UInt8.ofNat n]
  | long (s : Octets) : s ≠ [] → s.length ≤ 127 → number 256 s = n → Length n (UInt8.ofNat (128 + s.length) :: s)

/-- X.690 8.1.1: identifier, length, contents. -/
def Element (c : Cls) (n : Nat) (constructed : Bool) (contents b : Octets) : Prop :=
  ∃ i l, Identifier c constructed n i ∧ Length contents.length l ∧ b = i ++ l ++ contents

/-- X.690 8.14: explicit tags, inner ones first, around the element `e`; lax: octets after the inner element are
ignored. -/
def Around : TagSet → Octets → Octets → Prop
  | [], e, b => b = e
  | t :: ts, e, b => t.cls ≠ .universal ∧ ∃ junk e', Element t.cls t.num true (e ++ junk) e' ∧ Around ts e' b

/-- The contents inside all tags of a type. -/
def Tagged (constructed : Bool) : TagSet → Octets → Octets → Prop
  | [], _, _ => False
  | t :: ts, contents, b => ∃ e, Element t.cls t.num constructed contents e ∧ Around ts e b

/-- One character; lax: surrogate pairs in a BMPString. -/
def Character : CharKind → Char → Octets → Prop
  | .utf16be, c, b => Der.Character .utf16be c b ∨
      ∃ x y z w, b = [x, y, z, w] ∧ 0xd800 ≤ x.toNat * 256 + y.toNat ∧ x.toNat * 256 + y.toNat < 0xdc00 ∧
        0xdc00 ≤ z.toNat * 256 + w.toNat ∧ z.toNat * 256 + w.toNat < 0xe000 ∧
        c.toNat = 0x10000 + (x.toNat * 256 + y.toNat - 0xd800) * 1024 + (z.toNat * 256 + w.toNat - 0xdc00)
  | k, c, b => Der.Character k c b

/-- Contents octets.  BOOLEAN as in DER.  Lax: an INTEGER without contents is 0, times are any text. -/
def Contents : Prim → Val → Octets → Prop
  | .boolean, .int i, c => (i = 0 ∧ c = [0]) ∨ (i = 1 ∧ c = [255])
  | .integer, .int i, c => twos c = i
  | .enumerated, .int i, c => twos c = i
  | .bitString, .bits bs, c => ∃ u body pad, c = u :: body ∧ u.toNat ≤ 7 ∧ pad.length = u.toNat ∧ body.flatMap bitsOf = bs ++ pad
  | .octetString, .octets b, c => c = b
  | .null, .null, c => c = []
  | .oid, .oid (x :: y :: r), c => x ≤ 2 ∧ (x < 2 → y ≤ 39) ∧ ∃ gs, each2 Der.Groups ((x * 40 + y) :: r) gs ∧ c = gs.flatten
  | .str k, .str s, c => ∃ bs, each2 (Character k) s bs ∧ c = bs.flatten
  | .utcTime, .str s, c => ∃ bs, each2 (Character .ascii) s bs ∧ c = bs.flatten
  | .generalizedTime, .str s, c => ∃ bs, each2 (Character .ascii) s bs ∧ c = bs.flatten
  | _, _, _ => False

/-- No component is governed by an open type. -/
def closed : Comps → Bool
  | .nil => true
  | .cons f _ cs => f.openType.isNone && closed cs

/-- Names of the components that are there. -/
def present : Comps → Vals → List String
  | .cons f _ cs, .cons v vs => (if v = .absent then [] else [f.name]) ++ present cs vs
  | _, _ => []

/-- What was found for the first component, in order. -/
def first : List (Nat × Val) → List Val
  | [] => []
  | (0, v) :: hs => v :: first hs
  | (_ + 1, _) :: hs => first hs

/-- What was found for the others. -/
def others : List (Nat × Val) → List (Nat × Val)
  | [] => []
  | (0, _) :: hs => others hs
  | (i + 1, v) :: hs => (i, v) :: others hs

/-- The components of a SET from what was found for them (lax: more than once, then the last counts); OPTIONAL ones
may be missing, those with a DEFAULT too. -/
def settled : Comps → Vals → List (Nat × Val) → Prop
  | .nil, .nil, hs => hs = []
  | .cons f _ cs, .cons v vs, hs =>
    (match (first hs).getLast? with
      | some w => v = w
      | none => match f.mode with
        | .req => False
        | .opt => v = .absent
        | .dflt d => v = d) ∧ settled cs vs (others hs)
  | _, _, _ => False

mutual
/-- `b` is read as the value.  With `lax = false` the laxity is excluded that can make the reading
ambiguous: a tagged ANY with another tag. -/
def reads (lax : Bool) : Ty → Val → Octets → Prop
  | .prim .any a, v, b => ∃ c n k contents, Element c n k contents b ∧ match a.tags with
      -- without a tag the whole element; with one the contents; lax: the whole element if it has another tag
      | [t] => (c = t.cls ∧ n = t.num ∧ v = .octets contents) ∨ (lax = true ∧ ¬ (c = t.cls ∧ n = t.num) ∧ v = .octets b)
      | _ => v = .octets b
  | .prim k a, v, b => (∃ c, Contents k v c ∧ Tagged false a.tags c b) ∧ a.spec.ok (.simple v) = true
  | .seq isSet a cs, .record vs, b => (∃ es, Tagged true a.tags es.flatten b ∧
      -- the elements of a SET in any order, each for one of the components
      (if isSet then ∃ hs, each2 (fun h e => alternative lax cs h.1 h.2 e) hs es ∧ settled cs vs hs
        else components lax cs vs es)) ∧
      -- constraints on the components are not checked if there is an open type
      (closed cs = true → a.spec.ok (.mapping (present cs vs).length (present cs vs)) = true)
  -- lax: the number of elements is not checked
  | .of _ a t, .list vs, b => ∃ es, Tagged true a.tags es.flatten b ∧ each2 (reads lax t) vs.toList es
  | .choice a cs, .alt i v, b =>
      -- lax: octets after the element inside the tags are ignored, the innermost tag may be primitive
      if a.tags = [] then alternative lax cs i v b else ∃ k c junk, alternative lax cs i v c ∧ Tagged k a.tags (c ++ junk) b
  | _, _, _ => False
/-- The components of a SEQUENCE: OPTIONAL ones may be missing, those with a DEFAULT too (a component equal to its
default may be present, X.690 8.9.3). -/
def components (lax : Bool) : Comps → Vals → List Octets → Prop
  | .nil, .nil, es => es = []
  | .cons f t cs, .cons v vs, es =>
    (∃ e es', es = e :: es' ∧ reads lax t v e ∧ components lax cs vs es') ∨
    (components lax cs vs es ∧ match f.mode with
      | .req => False
      | .opt => v = .absent
      | .dflt d => v = d)
  | _, _, _ => False
/-- Alternative (or component) number `i`. -/
def alternative (lax : Bool) : Comps → Nat → Val → Octets → Prop
  | .cons _ t _, 0, v, b => reads lax t v b
  | .cons _ _ cs, i + 1, v, b => alternative lax cs i v b
  | .nil, _, _, _ => False
end

end Ber
end Verif
