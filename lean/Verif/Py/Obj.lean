import Verif.Asn1.Codec

/-!
# The expressions the schema modules are written in

Combinators with the names and the meaning of the pyasn1 calls that
/repo/pyasn1_modules/rfc*.py make.  `Verif/Gen/*.lean`, the transcription of
those modules, is written with them, one definition per Python statement.

A class and its instances are both an `Obj`.  An instance copies the class
attributes when it is made (`Asn1Type.__init__` copies them into
`self.__dict__`), so an `Obj` stored as a component type is a snapshot.  An
expression whose evaluation raises yields an object with a `bad` type.
-/

namespace Verif
namespace Py

open Asn1

/-- A pyasn1 class or instance: its type, its (legacy) `sizeSpec`, its value. -/
structure Obj where
  ty : Ty
  size : Constraint := .inter .nil
  val : Option Val := none
  deriving Inhabited

abbrev Bound := Asn1.Bound
abbrev Ident := Asn1.Ident
abbrev Tag (cls : Cls) (constructed : Bool) (num : Nat) : Asn1.Tag := ⟨cls, constructed, num⟩

/-- Object of an expression that raises. -/
def Obj.fail (why : String) : Obj := ⟨.bad why, .inter .nil, none⟩

def Obj.isPrim (o : Obj) : Bool :=
  match o.ty with
  | .prim _ _ => true
  | _ => false

def Obj.isBad (o : Obj) : Bool :=
  match o.ty with
  | .bad _ => true
  | _ => false

/-! ## Constraints -/

def ValueSizeConstraint (lo hi : Bound) : Constraint := .size lo hi
def ValueRangeConstraint (lo hi : Bound) : Constraint := .range lo hi
def SingleValueConstraint (vs : List Val) : Constraint := .single vs
def PermittedAlphabetConstraint (cs : List Char) : Constraint := .alphabet cs
def WithComponentsConstraint (cs : List (String × Bool)) : Constraint := .withComps cs

def constraints : List Constraint → Constraints
  | [] => .nil
  | c :: cs => .cons c (constraints cs)

def ConstraintsUnion (cs : List Constraint) : Constraint := .union (constraints cs)
def ConstraintsIntersection (cs : List Constraint) : Constraint := .inter (constraints cs)

/-- A Python string literal as a constraint value or character list. -/
def str (s : String) : Val := .str s.toList
def chars (s : String) : List Char := s.toList

def string.printable : List Char :=
  "0123456789abcdefghijklmnopqrstuvwxyzABCDEFGHIJKLMNOPQRSTUVWXYZ!\"#$%&'()*+,-./:;<=>?@[\\]^_`{|}~ \t\n\r".toList
    ++ [Char.ofNat 11, Char.ofNat 12]

def appendC : Constraints → Constraint → Constraints
  | .nil, d => .cons d .nil
  | .cons c cs, d => .cons c (appendC cs d)

end Py

namespace Asn1

/-- `self + constraint`: defined on constraint sets only (a `SingleValueConstraint` adds
the values of another); anything else raises `TypeError`. -/
def Constraint.add : Constraint → Constraint → Constraint
  | _, .invalid => .invalid
  | .inter cs, c => .inter (Py.appendC cs c)
  | .union cs, c => .union (Py.appendC cs c)
  | .single vs, .single ws => .single (vs ++ ws)
  | .alphabet vs, .alphabet ws => .alphabet (vs ++ ws)
  | _, _ => .invalid

/-- `self - constraint` on value sets. -/
def Constraint.diff : Constraint → Constraint → Constraint
  | .alphabet vs, .alphabet ws => .alphabet (vs.filter (fun c => !ws.contains c))
  | .single vs, .single ws => .single (vs.filter (fun c => !ws.contains c))
  | _, _ => .invalid

/-- `TagSet.tagImplicitly`: replaces the last tag, whose format is inherited. -/
def TagSet.tagImplicitly (ts : TagSet) (t : Tag) : TagSet :=
  match ts.getLast? with
  | none => [t]
  | some l => ts.dropLast ++ [⟨t.cls, l.constructed, t.num⟩]

/-- `TagSet.tagExplicitly`: appends a constructed tag. -/
def TagSet.tagExplicitly (ts : TagSet) (t : Tag) : TagSet := ts ++ [⟨t.cls, true, t.num⟩]

end Asn1

namespace Py
open Asn1

/-! ## Base classes -/

private def base (k : Prim) (n : Nat) : Obj := ⟨.prim k ⟨[⟨.universal, false, n⟩], .inter .nil, []⟩, .inter .nil, none⟩

namespace univ
def Boolean : Obj := ⟨.prim .boolean ⟨[⟨.universal, false, 1⟩], .inter (.cons (.single [.int 0, .int 1]) .nil),
  [("False", 0), ("True", 1)]⟩, .inter .nil, none⟩
def Integer : Obj := base .integer 2
def BitString : Obj := base .bitString 3
def OctetString : Obj := base .octetString 4
def Null : Obj := ⟨.prim .null ⟨[⟨.universal, false, 5⟩], .inter .nil, []⟩, .inter .nil, none⟩
def ObjectIdentifier : Obj := base .oid 6
def Enumerated : Obj := base .enumerated 10
def Any : Obj := ⟨.prim .any ⟨[], .inter .nil, []⟩, .inter .nil, none⟩
def Sequence : Obj := ⟨.seq false ⟨[⟨.universal, true, 16⟩], .inter .nil, []⟩ .nil, .inter .nil, none⟩
def SequenceOf : Obj := ⟨.of false ⟨[⟨.universal, true, 16⟩], .inter .nil, []⟩ (.bad "no componentType"), .inter .nil, none⟩
def Set : Obj := ⟨.seq true ⟨[⟨.universal, true, 17⟩], .inter .nil, []⟩ .nil, .inter .nil, none⟩
def SetOf : Obj := ⟨.of true ⟨[⟨.universal, true, 17⟩], .inter .nil, []⟩ (.bad "no componentType"), .inter .nil, none⟩
def Choice : Obj := ⟨.choice ⟨[], .inter .nil, []⟩ .nil, .inter .nil, none⟩
end univ

namespace char
def UTF8String : Obj := base (.str .utf8) 12
def NumericString : Obj := base (.str .ascii) 18
def PrintableString : Obj := base (.str .ascii) 19
def TeletexString : Obj := base (.str .latin1) 20
def IA5String : Obj := base (.str .ascii) 22
def VisibleString : Obj := base (.str .ascii) 26
def UniversalString : Obj := base (.str .utf32be) 28
def BMPString : Obj := base (.str .utf16be) 30
end char

namespace useful
def UTCTime : Obj := base .utcTime 23
def GeneralizedTime : Obj := base .generalizedTime 24
end useful

/-! ## Attributes -/

def Obj.tagSet (o : Obj) : TagSet := o.ty.tags
def Obj.subtypeSpec (o : Obj) : Constraint := o.ty.attrs.spec
def Obj.sizeSpec (o : Obj) : Constraint := o.size
/-- The value of an instance (`absent` if it is a schema object). -/
def Obj.value (o : Obj) : Val := o.val.getD .absent

/-- An `Integer` instance used as a bound. -/
def Obj.bound (o : Obj) : Bound :=
  match o.val with
  | some (.int i) => .fin i
  | _ => .inf

/-- `ConstructedAsn1Type._moveSizeSpec`: what `subtypeSpec` becomes when the
object is created.  A non-empty `sizeSpec` replaces a non-empty `subtypeSpec`. -/
def moveSizeSpec (size spec : Constraint) : Constraint :=
  if size.truthy then (if spec.truthy then size else spec.add size) else spec

/-- Object creation: simple types keep their value and re-check it, constructed
ones apply `_moveSizeSpec` and start without a value. -/
def Obj.make (o : Obj) : Obj :=
  match o.ty with
  | .bad _ => o
  | .prim _ a =>
    match a.spec, o.val with
    | .invalid, _ => .fail "constraint expression"
    | _, none => o
    | c, some v => if c.ok (.simple v) then o else .fail "value violates constraint"
  | t =>
    match moveSizeSpec o.size t.attrs.spec with
    | .invalid => .fail "constraint expression"
    | c => { o with ty := t.mapAttrs (fun a => { a with spec := c }), val := none }

/-- `X()`. -/
def Obj.call (o : Obj) : Obj := o.make

def Obj.withAttrs (o : Obj) (f : Attrs → Attrs) : Obj := { o with ty := o.ty.mapAttrs f }

/-- `.subtype(implicitTag=t)`. -/
def Obj.implicitTag (o : Obj) (t : Asn1.Tag) : Obj :=
  (o.withAttrs (fun a => { a with tags := a.tags.tagImplicitly t })).make

/-- `.subtype(explicitTag=t)`; a universal tag raises. -/
def Obj.explicitTag (o : Obj) (t : Asn1.Tag) : Obj :=
  if t.cls = .universal then .fail "explicit universal tag"
  else (o.withAttrs (fun a => { a with tags := a.tags.tagExplicitly t })).make

/-- `.subtype(subtypeSpec=c)`. -/
def Obj.addSubtypeSpec (o : Obj) (c : Constraint) : Obj :=
  (o.withAttrs (fun a => { a with spec := a.spec.add c })).make

/-- `.subtype(sizeSpec=c)`; simple types have no `sizeSpec` initializer (`KeyError`). -/
def Obj.addSizeSpec (o : Obj) (c : Constraint) : Obj :=
  if o.isPrim then .fail "sizeSpec on a simple type"
  else { ({ o with size := o.size.add c } : Obj).make with size := o.size }

/-- Constructor keyword `sizeSpec=c`. -/
def Obj.withSizeSpec (o : Obj) (c : Constraint) : Obj :=
  if o.isPrim then .fail "sizeSpec on a simple type"
  else { ({ o with size := c } : Obj).make with size := o.size }

/-- `cloneValueFlag=True`: the new object keeps the components of the old one. -/
def Obj.cloneValueFrom (o b : Obj) : Obj := if o.isBad then o else { o with val := b.val }

/-- `componentType = NamedTypes(...)`. -/
def Obj.setComponentType (o : Obj) (cs : Comps) : Obj :=
  match o.ty with
  | .seq s a _ => { o with ty := .seq s a cs }
  | .choice a _ => { o with ty := .choice a cs }
  | .bad _ => o
  | _ => .fail "named components on a type that has none"

/-- `componentType = X` on SequenceOf/SetOf. -/
def Obj.setComponentTypeOf (o : Obj) (c : Obj) : Obj :=
  match o.ty with
  | .of s a _ => { o with ty := .of s a c.ty }
  | .bad _ => o
  | _ => .fail "element type on a type that has none"

def Obj.setSubtypeSpec (o : Obj) (c : Constraint) : Obj := o.withAttrs (fun a => { a with spec := c })
def Obj.setSizeSpec (o : Obj) (c : Constraint) : Obj := { o with size := c }
def Obj.setTagSet (o : Obj) (ts : TagSet) : Obj := o.withAttrs (fun a => { a with tags := ts })

def distinct {α : Type} [BEq α] : List α → Bool
  | [] => true
  | x :: xs => !xs.contains x && distinct xs

def NamedValues (l : List (String × Int)) : List (String × Int) := l

/-- `namedValues = NamedValues(...)`; duplicate names or numbers raise. -/
def Obj.setNamedValues (o : Obj) (l : List (String × Int)) : Obj :=
  if distinct (l.map Prod.fst) && distinct (l.map Prod.snd) then o.withAttrs (fun a => { a with named := l })
  else .fail "duplicate named value"

/-- Class attribute `defaultValue` of an INTEGER class. -/
def Obj.setDefaultValue (o : Obj) (n : Int) : Obj := { o with val := some (.int n) }

/-- Named strings on a string type: pyasn1 string types do not read `namedValues`. -/
def Obj.unusedNamedValues (o : Obj) (_ : List (String × String)) : Obj := o

/-! ## Values -/

/-- `X(v)` or `.subtype(value=v)`. -/
def Obj.withVal (o : Obj) (v : Val) : Obj := if o.isBad then o else ({ o with val := some v } : Obj).make

def Obj.callInt (o : Obj) (n : Int) : Obj :=
  match o.ty with
  | .prim .integer _ => o.withVal (.int n)
  | .prim .enumerated _ => o.withVal (.int n)
  | .prim .boolean _ => o.withVal (.int n)
  | .bad _ => o
  | _ => .fail "integer value"

/-- Text of a digit string as a number. -/
def digits? : List Char → Nat → Option Nat
  | [], acc => some acc
  | c :: cs, acc => if c.isDigit then digits? cs (acc * 10 + (c.toNat - 48)) else none

/-- `BitString('name')`: a string that ends with the named bit, the only one set. -/
def namedBit (pos : Nat) : List Bool := List.replicate pos false ++ [true]

def Obj.callStr (o : Obj) (s : String) : Obj :=
  match o.ty with
  | .prim k a =>
    match k with
    | .integer | .enumerated | .boolean =>
      match a.named.find? (fun p => p.1 == s) with
      | some p => o.withVal (.int p.2)
      | none => .fail "unknown named number"
    | .null => if s = "" then o.withVal .null else .fail "null value"
    | .octetString => match encStr .latin1 s.toList with
      | some b => o.withVal (.octets b)
      | none => .fail "octet string value"
    | .bitString =>
      match a.named.find? (fun p => p.1 == s) with
      | some p => o.withVal (.bits (namedBit p.2.toNat))
      | none => .fail "bit string value"
    | .str k => match encStr k s.toList with
      | some _ => o.withVal (.str s.toList)
      | none => .fail "character string value"
    | _ => .fail "string value"
  | .bad _ => o
  | _ => .fail "string value"

def Obj.callArcs (o : Obj) (l : List Nat) : Obj :=
  match o.ty with
  | .prim .oid _ => o.withVal (.oid l)
  | .bad _ => o
  | _ => .fail "object identifier value"

/-- `X(y)` where `y` is an instance. -/
def Obj.callObj (o : Obj) (y : Obj) : Obj :=
  match o.ty, y.val with
  | .prim .integer _, some (.int n) => o.withVal (.int n)
  | .prim .enumerated _, some (.int n) => o.withVal (.int n)
  | .prim .oid _, some (.oid l) => o.withVal (.oid l)
  | .bad _, _ => o
  | _, _ => .fail "object value"

/-- `oid + (arcs)`. -/
def Obj.addArcs (o : Obj) (l : List Nat) : Obj :=
  match o.ty, o.val with
  | .prim .oid _, some (.oid a) => o.withVal (.oid (a ++ l))
  | .bad _, _ => o
  | _, _ => .fail "object identifier +"

/-! ## Named types -/

def OpenType (g : String) (m : Ident) : OpenTy := ⟨g, m⟩

def NamedType (n : String) (o : Obj) (openType : Option OpenTy := none) : Field × Ty :=
  (⟨n, .req, openType⟩, o.ty)
def OptionalNamedType (n : String) (o : Obj) (openType : Option OpenTy := none) : Field × Ty :=
  (⟨n, .opt, openType⟩, o.ty)
def DefaultedNamedType (n : String) (o : Obj) (openType : Option OpenTy := none) : Field × Ty :=
  (⟨n, .dflt o.value, openType⟩, o.ty)

def NamedTypes (l : List (Field × Ty)) : Comps := Comps.ofList l

/-! ## OID builders (`_OID`, `_buildOid`, ...) -/

/-- Argument of an OID builder: a number, or an ObjectIdentifier. -/
inductive OidArg where
  | num (n : Nat)
  | oid (o : Obj)

/-- The `for x in tuple(components)` loop; `output` is the list built so far.
`list(x)` raises on an ObjectIdentifier without a value. -/
def oidLoop (output : List Nat) : List OidArg → Option (List Nat)
  | [] => some output
  | .num n :: xs => oidLoop (output ++ [n]) xs
  | .oid o :: xs =>
    match o.val with
    | some (.oid l) => oidLoop (output ++ l) xs
    | _ => none

/-! ## Open type maps -/

/-- `{oid: type, ...}`. -/
abbrev Entries := List (Val × Ty)

/-- A module-level dictionary, and a module.  Modules are numbered so that every module comes
after the ones it imports. -/
def map (idx : Nat) (name : String) : Ident := ⟨idx, name⟩
def mod (idx : Nat) (name : String) : Ident := ⟨idx, name⟩

/-- What importing a module does to the module-level dictionaries. -/
inductive Effect where
  /-- `name = {...}` -/
  | create (map : Ident) (es : Entries)
  /-- `map.update(es)` -/
  | update (map : Ident) (es : Entries)
  /-- `name = othermodule.map` -/
  | alias (map : Ident) (target : Ident)

/-! ## Instances filled in field by field -/

/-- Right-hand side of `x['f'] = ...`. -/
inductive Rhs where
  | obj (o : Obj)
  /-- `x['f'][0] = o` -/
  | elem0 (o : Obj)
  | int (n : Int)
  /-- `der_encode(o)` -/
  | encoded (o : Obj)

structure Proto where
  obj : Obj
  sets : List (String × Rhs) := []
  deriving Inhabited

def Proto.set (p : Proto) (f : String) (r : Rhs) : Proto := { p with sets := p.sets ++ [(f, r)] }

/-- The octets of an instance; `none` if it has no value or does not encode. -/
def Obj.encoding (o : Obj) : Option (List UInt8) := o.val.bind (encode o.ty)

/-- The value a component of type `t` takes from an assignment.  A component of
ANY type holds the encoding of the assigned object. -/
def Rhs.val (t : Ty) : Rhs → Option Val
  | .int n => some (.int n)
  | .encoded o => o.encoding.map .octets
  | .obj o => if t.anyLike && !o.ty.anyLike then o.encoding.map .octets else o.val
  | .elem0 o =>
    match t with
    | .of _ _ e =>
      (if e.anyLike && !o.ty.anyLike then o.encoding.map .octets else o.val).map (fun v => .list (.cons v .nil))
    | _ => none

/-- Last assignment to a field. -/
def lastSet (f : String) : List (String × Rhs) → Option Rhs
  | [] => none
  | (g, r) :: l =>
    match lastSet f l with
    | some r' => some r'
    | none => if g = f then some r else none

/-- Components of the instance after all assignments. -/
def fill (sets : List (String × Rhs)) : Comps → Vals
  | .nil => .nil
  | .cons f t cs =>
    .cons (match lastSet f.name sets with
      | some r => (r.val t).getD .absent
      | none => (f.mode.missing).getD .absent) (fill sets cs)

/-- The instance as an object. -/
def Proto.toObj (p : Proto) : Obj :=
  match p.obj.ty with
  | .seq _ _ cs => if p.sets.isEmpty then p.obj else { p.obj with val := some (.record (fill p.sets cs)) }
  | _ => p.obj

/-! ## Modules -/

/-- An expression `X(...)` that instantiates a class of the package: where it is, `X` when the
expression is evaluated, and `X` when its module has been imported. -/
structure Snapshot where
  site : String
  used : Obj
  final : Obj

/-- What importing one module leaves behind. -/
structure Module where
  id : Ident
  imports : List Ident
  effects : List Effect
  classes : List (String × Obj)
  objects : List (String × Obj)
  protos : List (String × Proto)
  snapshots : List Snapshot
  /-- The functions the module defines, by name. -/
  builders : List (String × (List OidArg → Obj))

end Py
end Verif
