/-!
# ASN.1 schema objects and values, as pyasn1 represents them

The modules of /repo/pyasn1_modules contain almost nothing but schema objects
built from `pyasn1.type.*`.  pyasn1 itself is not in /repo (setup.py:
`pyasn1>=0.4.7,<0.6.0`); this file is the part of its object model that those
modules use.  See DESIGN.md, "Environment model".
-/

namespace Verif
namespace Asn1

/-- `tag.tagClassUniversal/Application/Context/Private`. -/
inductive Cls where
  | universal | application | context | priv
  deriving DecidableEq, Repr, Inhabited

/-- The two class bits of an identifier octet. -/
def Cls.bits : Cls → Nat
  | .universal => 0
  | .application => 1
  | .context => 2
  | .priv => 3

/-- Inverse of `Cls.bits` on 0..3. -/
def Cls.ofBits : Nat → Cls
  | 0 => .universal
  | 1 => .application
  | 2 => .context
  | _ => .priv

/-- `tag.Tag(class, format, number)`. -/
structure Tag where
  cls : Cls
  constructed : Bool
  num : Nat
  deriving DecidableEq, Repr, Inhabited

/-- pyasn1 compares tags by class and number only. -/
def Tag.same (a b : Tag) : Bool := a.cls == b.cls && a.num == b.num

/-- `tag.TagSet`: innermost (base) tag first, outermost last. -/
abbrev TagSet := List Tag

/-- Character encodings of the restricted string types. -/
inductive CharKind where
  | ascii | latin1 | utf8 | utf16be | utf32be
  deriving DecidableEq, Repr, Inhabited

/-- The primitive pyasn1 base classes. -/
inductive Prim where
  | boolean | integer | enumerated | bitString | octetString | null | oid | any
  | str (k : CharKind)
  | utcTime | generalizedTime
  deriving DecidableEq, Repr, Inhabited

mutual
/-- Values.  A `record` lists its components in schema order (`absent` for an
optional component that is not set); `alt i v` is a CHOICE whose `i`-th
alternative is chosen.  BOOLEAN values are the integers 0 and 1, as in pyasn1,
where `Boolean` is a subclass of `Integer`. -/
inductive Val where
  | absent
  | int (i : Int)
  | bits (bs : List Bool)
  | octets (b : List UInt8)
  | null
  | oid (arcs : List Nat)
  | str (s : List Char)
  | list (vs : Vals)
  | record (vs : Vals)
  | alt (i : Nat) (v : Val)
  deriving DecidableEq, Repr
/-- Lists of values (a separate type so that recursion stays structural). -/
inductive Vals where
  | nil
  | cons (v : Val) (vs : Vals)
  deriving DecidableEq, Repr
end

instance : Inhabited Val := ⟨.absent⟩
instance : Inhabited Vals := ⟨.nil⟩

/-- Bounds of size and range constraints; `MAX = float('inf')`. -/
inductive Bound where
  | fin (i : Int)
  | inf
  deriving DecidableEq, Repr, Inhabited

mutual
/-- `pyasn1.type.constraint` objects. -/
inductive Constraint where
  /-- `ConstraintsIntersection(*cs)` -/
  | inter (cs : Constraints)
  /-- `ConstraintsUnion(*cs)` -/
  | union (cs : Constraints)
  /-- `ValueSizeConstraint(lo, hi)` -/
  | size (lo hi : Bound)
  /-- `ValueRangeConstraint(lo, hi)` -/
  | range (lo hi : Bound)
  /-- `SingleValueConstraint(*vs)` -/
  | single (vs : List Val)
  /-- `PermittedAlphabetConstraint(*chars)` -/
  | alphabet (cs : List Char)
  /-- `WithComponentsConstraint((name, ComponentPresent/AbsentConstraint()), ...)` -/
  | withComps (cs : List (String × Bool))
  /-- Evaluating the constraint expression raises. -/
  | invalid
  deriving DecidableEq, Repr
inductive Constraints where
  | nil
  | cons (c : Constraint) (cs : Constraints)
  deriving DecidableEq, Repr
end

instance : Inhabited Constraint := ⟨.inter .nil⟩

/-- Truth value of a constraint object (`bool(self._values)`). -/
def Constraint.truthy : Constraint → Bool
  | .inter .nil => false
  | .union .nil => false
  | .single [] => false
  | .alphabet [] => false
  | .withComps [] => false
  | _ => true

/-- What a constraint is evaluated on: the value of a simple type, or the
`{name: component}` mapping of a constructed one, of which only the number of
entries and the names matter. -/
inductive Subject where
  | simple (v : Val)
  | mapping (n : Nat) (names : List String)
  deriving Repr

def Bound.le : Bound → Bound → Bool
  | .fin a, .fin b => decide (a ≤ b)
  | .fin _, .inf => true
  | .inf, .inf => true
  | .inf, .fin _ => false

/-- `len(value)`; `none` where Python raises `TypeError`. -/
def Subject.len : Subject → Option Nat
  | .mapping n _ => some n
  | .simple (.bits bs) => some bs.length
  | .simple (.octets b) => some b.length
  | .simple (.oid a) => some a.length
  | .simple (.str s) => some s.length
  | .simple .null => some 0
  | .simple _ => none

/-- Iterating over a value for `PermittedAlphabetConstraint`: the characters
of a character string; other values never meet a character alphabet. -/
def Subject.charsIn (cs : List Char) : Subject → Bool
  | .simple (.str s) => s.all (fun c => cs.contains c)
  | .simple (.octets b) => b.isEmpty
  | .mapping 0 _ => true
  | _ => false

mutual
/-- `constraint(value)` does not raise. -/
def Constraint.ok : Constraint → Subject → Bool
  | .inter cs, s => cs.all s
  | .union .nil, _ => true
  | .union (.cons c cs), s => c.ok s || cs.any s
  | .size lo hi, s =>
    match s.len with
    | some n => lo.le (.fin n) && (Bound.fin n).le hi
    | none => false
  | .range lo hi, .simple (.int i) => lo.le (.fin i) && (Bound.fin i).le hi
  | .range _ _, _ => false
  | .single [], _ => true
  | .single (v :: vs), .simple w => (v :: vs).contains w
  | .single (_ :: _), .mapping _ _ => false
  | .alphabet [], _ => true
  | .alphabet (c :: cs), s => s.charsIn (c :: cs)
  | .withComps cs, .mapping _ names => cs.all (fun p => names.contains p.1 == p.2)
  | .withComps [], .simple _ => true
  | .withComps (_ :: _), .simple _ => false
  | .invalid, _ => false
/-- All constraints hold (`ConstraintsIntersection._testValue`). -/
def Constraints.all : Constraints → Subject → Bool
  | .nil, _ => true
  | .cons c cs, s => c.ok s && cs.all s
/-- Some constraint holds (`ConstraintsUnion._testValue`). -/
def Constraints.any : Constraints → Subject → Bool
  | .nil, _ => false
  | .cons c cs, s => c.ok s || cs.any s
end

/-- Attributes every type carries: tags, `subtypeSpec`, named values. -/
structure Attrs where
  tags : TagSet
  spec : Constraint
  named : List (String × Int)
  deriving DecidableEq, Repr, Inhabited

/-- Mandatory, OPTIONAL, or DEFAULT with its value. -/
inductive Mode where
  | req
  | opt
  | dflt (v : Val)
  deriving DecidableEq, Repr, Inhabited

/-- A module, or a module-level variable: a number that identifies it, and its name. -/
structure Ident where
  idx : Nat
  name : String
  deriving DecidableEq, Repr, Inhabited

/-- `opentype.OpenType(governor, map)`; the map is named by the module-level
variable that holds it. -/
structure OpenTy where
  governor : String
  map : Ident
  deriving DecidableEq, Repr, Inhabited

/-- A `NamedType` without its type object. -/
structure Field where
  name : String
  mode : Mode
  openType : Option OpenTy
  deriving DecidableEq, Repr, Inhabited

mutual
/-- Type objects. -/
inductive Ty where
  | prim (k : Prim) (a : Attrs)
  /-- `Sequence` (`isSet = false`) or `Set`. -/
  | seq (isSet : Bool) (a : Attrs) (cs : Comps)
  /-- `SequenceOf` or `SetOf`. -/
  | of (isSet : Bool) (a : Attrs) (t : Ty)
  | choice (a : Attrs) (cs : Comps)
  /-- No type: a `SequenceOf` without `componentType`, or an expression whose
  evaluation raises (with the reason). -/
  | bad (why : String)
  deriving DecidableEq, Repr
/-- `NamedTypes`. -/
inductive Comps where
  | nil
  | cons (f : Field) (t : Ty) (cs : Comps)
  deriving DecidableEq, Repr
end

instance : Inhabited Ty := ⟨.bad ""⟩
instance : Inhabited Comps := ⟨.nil⟩

/-- The tag set of a type object. -/
def Ty.tags : Ty → TagSet
  | .prim _ a => a.tags
  | .seq _ a _ => a.tags
  | .of _ a _ => a.tags
  | .choice a _ => a.tags
  | .bad _ => []

def Ty.attrs : Ty → Attrs
  | .prim _ a => a
  | .seq _ a _ => a
  | .of _ a _ => a
  | .choice a _ => a
  | .bad _ => ⟨[], .invalid, []⟩

def Ty.mapAttrs (f : Attrs → Attrs) : Ty → Ty
  | .prim k a => .prim k (f a)
  | .seq s a cs => .seq s (f a) cs
  | .of s a t => .of s (f a) t
  | .choice a cs => .choice (f a) cs
  | .bad w => .bad w

def Vals.toList : Vals → List Val
  | .nil => []
  | .cons v vs => v :: vs.toList

def Vals.ofList : List Val → Vals
  | [] => .nil
  | v :: vs => .cons v (Vals.ofList vs)

def Comps.toList : Comps → List (Field × Ty)
  | .nil => []
  | .cons f t cs => (f, t) :: cs.toList

def Comps.ofList : List (Field × Ty) → Comps
  | [] => .nil
  | (f, t) :: cs => .cons f t (Comps.ofList cs)

def Comps.length : Comps → Nat
  | .nil => 0
  | .cons _ _ cs => cs.length + 1

def Vals.length : Vals → Nat
  | .nil => 0
  | .cons _ vs => vs.length + 1

end Asn1
end Verif
