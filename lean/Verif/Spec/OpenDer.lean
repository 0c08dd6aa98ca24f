import Verif.Spec.Open
import Verif.Spec.Der
import Verif.Spec.Empty

/-!
# DER messages with open types

`Distinguished D allowed ine t b`: `b` is the DER encoding of a legal value of type `t`, and what its open type fields hold
is, in the same sense, the DER encoding of a value of the registered type, at any depth.  `allowed` restricts the fields;
`ine` says whether the value sits in an OPTIONAL component.
-/

namespace Verif
namespace Asn1

/-- What an open type field holds. -/
structure Content where
  /-- the field is OPTIONAL -/
  opt : Bool
  /-- the dictionary -/
  map : Ident
  /-- the value of the governor -/
  key : Val
  /-- the type of the field, or of its elements -/
  field : Ty
  /-- the registered type -/
  type : Ty
  octets : Bytes

/-- The type of what is in a field: of its elements, if there can be several. -/
def Ty.item : Ty → Ty
  | .of _ _ t => t
  | t => t

mutual
/-- The open type fields of a value whose governor is registered. -/
def Ty.fields (D : Registry) : Ty → Val → List Content
  | .seq _ _ cs, .record vs => Comps.fields D cs vs cs vs
  | .of _ _ t, .list vs => vs.toList.flatMap (t.fields D)
  | .choice _ cs, .alt i v => cs.fieldsAlt D i v
  | _, _ => []
def Comps.fields (D : Registry) (ds : Comps) (us : Vals) : Comps → Vals → List Content
  | .cons f t cs, .cons v vs =>
    t.fields D v ++
    (match f.openType with
     | none => []
     | some o => match fieldVal o.governor ds us with
       | none => []
       | some g => match D o.map g with
         | none => []
         | some u => (octetsIn v).map (fun b => ⟨f.mode.isOpt, o.map, g, t.item, u, b⟩)) ++
    Comps.fields D ds us cs vs
  | _, _ => []
def Comps.fieldsAlt (D : Registry) : Comps → Nat → Val → List Content
  | .cons _ t _, 0, v => t.fields D v
  | .cons _ _ cs, i + 1, v => cs.fieldsAlt D i v
  | .nil, _, _ => []
end

/-- The field and what it holds can be told apart by their tags or constraints, or the field has no tag of its own. -/
def Content.fits (c : Content) : Prop :=
  c.field.tags = c.type.tags → c.field.attrs.spec = c.type.attrs.spec → c.field.tags = []

inductive Distinguished (D : Registry) (allowed : Content → Prop) : Bool → Ty → Bytes → Prop
  | mk (ine : Bool) (t : Ty) (b : Bytes) (v : Val) : Der.encodes t v b → t.valid v = true → Der.care t v →
      t.kept ine v = true → (ine = true → t.vanish v = false) →
      (∀ v' r, decode t b = some (v', r) → ∀ c ∈ t.fields D v', allowed c) →
      (∀ v' r, decode t b = some (v', r) → ∀ c ∈ t.fields D v', Distinguished D allowed c.opt c.type c.octets) →
      Distinguished D allowed ine t b

/-- The same with no regard to OPTIONAL components that hold empty collections. -/
inductive Nested (D : Registry) (allowed : Content → Prop) : Ty → Bytes → Prop
  | mk (t : Ty) (b : Bytes) (v : Val) : Der.encodes t v b → t.valid v = true → Der.care t v →
      (∀ v' r, decode t b = some (v', r) → ∀ c ∈ t.fields D v', allowed c) →
      (∀ v' r, decode t b = some (v', r) → ∀ c ∈ t.fields D v', Nested D allowed c.type c.octets) →
      Nested D allowed t b

end Asn1
end Verif
