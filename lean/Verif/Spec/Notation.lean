import Verif.Spec.Asn1

/-!
# ASN.1 notation, and when a type object is what the notation says

The fragment of X.680 used by the docstrings of rfc4210.py, and the comparison of a
type object with it.  Nothing here refers to how the type objects are built.
-/

namespace Verif.Spec

open Asn1

mutual
/-- A type in ASN.1 notation. -/
inductive Notation where
  | ref (name : String)
  | integer (named : List (String × Int))
  | bitString (named : List (String × Int))
  | octetString | oid | utf8String | generalizedTime | any
  /-- `SEQUENCE [SIZE (lo..MAX)] OF T` -/
  | seqOf (lo : Option Nat) (t : Notation)
  | seq (ms : Members)
  | choice (ms : Members)
/-- `name [tag] T OPTIONAL` lists. -/
inductive Members where
  | nil
  | cons (name : String) (tag : Option Nat) (optional : Bool) (t : Notation) (ms : Members)
end

/-- In an `EXPLICIT TAGS` module `[n]` adds a context-specific constructed tag. -/
def outer : Option Nat → TagSet
  | none => []
  | some n => [⟨.context, true, n⟩]

/-- No constraint. -/
def free (c : Constraint) : Bool := c == .inter .nil

/-- `SIZE (lo..MAX)`, possibly inside intersections of one constraint. -/
def atLeast (lo : Nat) : Constraint → Bool
  | .size l h => l == .fin lo && h == .inf
  | .inter (.cons c .nil) => atLeast lo c
  | _ => false

/-- `SIZE (lo..MAX)`, or no constraint. -/
def sized : Option Nat → Constraint → Bool
  | none, c => free c
  | some lo, c => atLeast lo c

/-- The attributes of a type with universal tag `n`, further tags `ts`, these named
values and no constraint. -/
def plain (constructed : Bool) (n : Nat) (ts : TagSet) (named : List (String × Int)) (a : Attrs) : Bool :=
  a.tags == ⟨.universal, constructed, n⟩ :: ts && free a.spec && a.named == named

/-- The type `u` with further explicit tags. -/
def tagged (ts : TagSet) (u : Ty) : Ty := u.mapAttrs (fun a => { a with tags := a.tags ++ ts })

/-- A constraint inside intersections of one constraint. -/
def peel : Constraint → Constraint
  | .inter (.cons c .nil) => peel c
  | c => c

/-- The same type, but for intersections of one constraint around the constraint. -/
def alike (t u : Ty) : Bool :=
  t.mapAttrs (fun a => { a with spec := peel a.spec }) == u.mapAttrs (fun a => { a with spec := peel a.spec })

mutual
/-- The type object `t` is what the notation, under the explicit tags `ts`, says; names
are looked up in `env`. -/
def Notation.fits (env : String → Option Ty) (ts : TagSet) : Notation → Ty → Bool
  | .ref n, t =>
    match env n with
    | some u => alike t (tagged ts u)
    | none => false
  | .integer named, .prim .integer a => plain false 2 ts named a
  | .bitString named, .prim .bitString a => plain false 3 ts named a
  | .octetString, .prim .octetString a => plain false 4 ts [] a
  | .oid, .prim .oid a => plain false 6 ts [] a
  | .utf8String, .prim (.str .utf8) a => plain false 12 ts [] a
  | .generalizedTime, .prim .generalizedTime a => plain false 24 ts [] a
  | .any, .prim .any a => a.tags == ts && free a.spec
  | .seqOf lo n, .of false a u => a.tags == ⟨.universal, true, 16⟩ :: ts && sized lo a.spec && n.fits env [] u
  | .seq ms, .seq false a cs => plain true 16 ts [] a && ms.fits env true cs
  | .choice ms, .choice a cs => a.tags == ts && free a.spec && ms.fits env false cs
  | _, _ => false
/-- The components are those listed: same names, order, tags, optionality, types.  (The
alternatives of a CHOICE are not OPTIONAL.) -/
def Members.fits (env : String → Option Ty) (inSeq : Bool) : Members → Comps → Bool
  | .nil, .nil => true
  | .cons name tag optional n ms, .cons f t cs =>
    f.name == name && f.mode == (if optional then .opt else .req) && (inSeq || !optional)
      && n.fits env (outer tag) t && ms.fits env inSeq cs
  | _, _ => false
end

mutual
/-- The values of the type the notation describes (`ts`: its explicit tags, which matter to
ANY only: without one its octets must be a complete element).  A value of a referenced type
is a legal value of what the name stands for. -/
def Notation.has (env : String → Option Ty) (ts : TagSet) : Notation → Val → Bool
  | .ref n, v =>
    match env n with
    | some u => (tagged ts u).valid v
    | none => false
  | .integer _, .int _ => true
  | .bitString _, .bits _ => true
  | .octetString, .octets _ => true
  | .oid, .oid (x :: y :: _) => x ≤ 2 && (x == 2 || y < 40)
  | .utf8String, .str _ => true
  | .generalizedTime, .str s => legalTime 13 19 s
  | .any, .octets b => !ts.isEmpty || oneElement b
  | .seqOf lo n, .list vs => vs.every (n.has env []) && lo.all (fun k => decide (k ≤ vs.length))
  | .seq ms, .record vs => ms.has env vs
  | .choice ms, .alt i v => ms.hasAlt env i v
  | _, _ => false
/-- One value per component; only the OPTIONAL ones may be absent. -/
def Members.has (env : String → Option Ty) : Members → Vals → Bool
  | .nil, .nil => true
  | .cons _ tag optional n ms, .cons v vs => ((optional && v == .absent) || n.has env (outer tag) v) && ms.has env vs
  | _, _ => false
def Members.hasAlt (env : String → Option Ty) : Members → Nat → Val → Bool
  | .cons _ tag _ n _, 0, v => n.has env (outer tag) v
  | .cons _ _ _ _ ms, i + 1, v => ms.hasAlt env i v
  | .nil, _, _ => false
end

end Verif.Spec
