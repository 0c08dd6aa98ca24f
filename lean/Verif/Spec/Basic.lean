import Verif.Spec.Ber

/-!
# The Basic Encoding Rules

X.690 section 8 as a relation between values and octets, with definite and indefinite lengths, OCTET STRINGs and
BIT STRINGs in pieces and any octet but 0 for TRUE.  Where the decoder of BER accepts more than that the definition
says so: *lax*.  Nothing here refers to an encoder or a decoder.
-/

namespace Verif
namespace Basic

open Asn1 Der

/-- X.690 8.1.5: end-of-contents octets. -/
def eoc : Octets := [0, 0]

/-- X.690 8.1.1: a complete encoding, whatever its type: definite length, or (8.1.3.6) indefinite length, complete
encodings and end-of-contents octets; lax: the identifier octet may say primitive. -/
inductive Complete : Octets → Prop
  | definite (c : Cls) (n : Nat) (k : Bool) (contents b : Octets) : Ber.Element c n k contents b → Complete b
  | indefinite (c : Cls) (n : Nat) (k : Bool) (i : Octets) (es : List Octets) : Ber.Identifier c k n i →
      (∀ e ∈ es, Complete e) → (∀ e ∈ es, e ≠ eoc) → Complete (i ++ [128] ++ es.flatten ++ eoc)

/-- X.690 8.1.3.6: an element with indefinite length. -/
def Indefinite (c : Cls) (n : Nat) (k : Bool) (contents b : Octets) : Prop :=
  ∃ (i : Octets) (es : List Octets), Ber.Identifier c k n i ∧ (∀ e ∈ es, Complete e) ∧ (∀ e ∈ es, e ≠ eoc) ∧ contents = es.flatten ∧
    b = i ++ [128] ++ contents ++ eoc

/-- An element with definite or indefinite length. -/
def Element (c : Cls) (n : Nat) (k indefinite : Bool) (contents b : Octets) : Prop :=
  if indefinite then Indefinite c n k contents b else Ber.Element c n k contents b

/-- X.690 8.14: explicit tags, inner ones first, around the element `e`; lax: octets after the inner element are
ignored if the length is definite. -/
def Around : TagSet → Octets → Octets → Prop
  | [], e, b => b = e
  | t :: ts, e, b => t.cls ≠ .universal ∧
      ((∃ junk e', Ber.Element t.cls t.num true (e ++ junk) e' ∧ Around ts e' b) ∨
        (∃ e', Indefinite t.cls t.num true e e' ∧ Around ts e' b))

/-- The contents inside all tags of a type. -/
def Tagged (k indefinite : Bool) : TagSet → Octets → Octets → Prop
  | [], _, _ => False
  | t :: ts, contents, b => ∃ e, Element t.cls t.num k indefinite contents e ∧ Around ts e b

/-- X.690 8.2.2: any octet but 0 for TRUE; lax: any number of octets, read as an INTEGER.  The other types as in
`Ber.Contents`. -/
def Contents : Prim → Val → Octets → Prop
  | .boolean, .int i, c => (i = 0 ∧ twos c = 0) ∨ (i = 1 ∧ twos c ≠ 0)
  | .boolean, _, _ => False
  | k, v, c => Ber.Contents k v c

/-- X.690 8.6.4 and 8.7.3: a value in pieces.  Pieces are primitive here; lax: the pieces of a BIT STRING, not only
the last one, may be of any length. -/
def Pieces (indefinite : Bool) : Prim → Val → List Octets → Prop
  | .octetString, .octets b, es => ∃ ps, each2 (fun p e => Ber.Element .universal 4 false p e) ps es ∧ b = ps.flatten
  | .bitString, .bits b, es => (indefinite = true ∨ es ≠ []) ∧ ∃ ps : List (List Bool),
      each2 (fun p e => ∃ c, Ber.Contents .bitString (.bits p) c ∧ Ber.Element .universal 3 false c e) ps es ∧ b = ps.flatten
  | _, _, _ => False

mutual
/-- `b` is read as the value.  With `lax = false` the laxity is excluded that can make the reading ambiguous: a tagged
ANY with another tag.  Elements for an ANY have definite length here. -/
def reads (lax : Bool) : Ty → Val → Octets → Prop
  | .prim .any a, v, b => Ber.reads lax (.prim .any a) v b
  | .prim k a, v, b =>
      ((∃ c, Contents k v c ∧ Tagged false false a.tags c b) ∨
        (∃ es form ind, (form = true ∨ ind = true) ∧ Pieces ind k v es ∧ Tagged form ind a.tags es.flatten b)) ∧
      a.spec.ok (.simple v) = true
  | .seq isSet a cs, .record vs, b => (∃ es ind, Tagged true ind a.tags es.flatten b ∧
      -- the elements of a SET in any order, each for one of the components
      (if isSet then ∃ hs, each2 (fun h e => alternative lax cs h.1 h.2 e) hs es ∧ Ber.settled cs vs hs
        else components lax cs vs es)) ∧
      -- constraints on the components are not checked if there is an open type
      (Ber.closed cs = true → a.spec.ok (.mapping (Ber.present cs vs).length (Ber.present cs vs)) = true)
  -- lax: the number of elements is not checked
  | .of _ a t, .list vs, b => ∃ es ind, Tagged true ind a.tags es.flatten b ∧ each2 (reads lax t) vs.toList es
  | .choice a cs, .alt i v, b =>
      -- lax: octets after the element inside the tags are ignored if the length is definite, the innermost tag may be
      -- primitive
      if a.tags = [] then alternative lax cs i v b
      else ∃ k c, alternative lax cs i v c ∧ ((∃ junk, Tagged k false a.tags (c ++ junk) b) ∨ Tagged k true a.tags c b)
  | _, _, _ => False
/-- The components of a SEQUENCE: OPTIONAL ones may be missing, those with a DEFAULT too (a component equal to its
default may be present, X.690 8.9.3). -/
def components (lax : Bool) : Comps → Vals → List Octets → Prop
  | .nil, .nil, es => es = []
  | .cons f t cs, .cons v vs, es =>
    (∃ e es', es = e :: es' ∧ reads lax t v e ∧ components lax cs vs es') ∨
    (components lax cs vs es ∧ match f.mode with
      | .req => False
      | .opt => v = .absent
      | .dflt d => v = d)
  | _, _, _ => False
/-- Alternative (or component) number `i`. -/
def alternative (lax : Bool) : Comps → Nat → Val → Octets → Prop
  | .cons _ t _, 0, v, b => reads lax t v b
  | .cons _ _ cs, i + 1, v, b => alternative lax cs i v b
  | .nil, _, _, _ => False
end

end Basic
end Verif
