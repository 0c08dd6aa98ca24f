import Verif.Asn1.Types

/-!
# ASN.1 notation as type objects

The types of X.680, as the standards use them, with the tags X.680 and X.690 give them.  The
modules under `Verif/Std` are written with these; nothing here refers to how pyasn1 builds its type
objects.
-/

namespace Verif
namespace Spec
namespace X680

open Asn1

/-- No constraint. -/
def free : Constraint := .inter .nil

/-- Universal tag `n`, primitive. -/
def basic (k : Prim) (n : Nat) : Ty := .prim k ⟨[⟨.universal, false, n⟩], free, []⟩

/-- FALSE and TRUE are 0 and 1. -/
def BOOLEAN : Ty := .prim .boolean ⟨[⟨.universal, false, 1⟩], .single [.int 0, .int 1], [("False", 0), ("True", 1)]⟩
def INTEGER : Ty := basic .integer 2
def BIT_STRING : Ty := basic .bitString 3
def OCTET_STRING : Ty := basic .octetString 4
def NULL : Ty := basic .null 5
def OBJECT_IDENTIFIER : Ty := basic .oid 6
def ENUMERATED : Ty := basic .enumerated 10
def UTF8String : Ty := basic (.str .utf8) 12
def NumericString : Ty := basic (.str .ascii) 18
def PrintableString : Ty := basic (.str .ascii) 19
def TeletexString : Ty := basic (.str .latin1) 20
def T61String : Ty := TeletexString
def VideotexString : Ty := basic (.str .latin1) 21
def IA5String : Ty := basic (.str .ascii) 22
def UTCTime : Ty := basic .utcTime 23
def GeneralizedTime : Ty := basic .generalizedTime 24
def GraphicString : Ty := basic (.str .latin1) 25
def VisibleString : Ty := basic (.str .ascii) 26
def GeneralString : Ty := basic (.str .latin1) 27
def UniversalString : Ty := basic (.str .utf32be) 28
def BMPString : Ty := basic (.str .utf16be) 30
/-- `ANY`, `ANY DEFINED BY`: no tag of its own. -/
def ANY : Ty := .prim .any ⟨[], free, []⟩

/-- Named numbers or bits. -/
def named (ns : List (String × Int)) (t : Ty) : Ty := t.mapAttrs (fun a => { a with named := ns })

/-- `name Type` -/
def mandatory (name : String) (t : Ty) : Field × Ty := (⟨name, .req, none⟩, t)
/-- `name Type OPTIONAL` -/
def optional (name : String) (t : Ty) : Field × Ty := (⟨name, .opt, none⟩, t)
/-- `name Type DEFAULT value` -/
def default (name : String) (t : Ty) (v : Val) : Field × Ty := (⟨name, .dflt v, none⟩, t)

def SEQUENCE (cs : List (Field × Ty)) : Ty := .seq false ⟨[⟨.universal, true, 16⟩], free, []⟩ (.ofList cs)
def SET (cs : List (Field × Ty)) : Ty := .seq true ⟨[⟨.universal, true, 17⟩], free, []⟩ (.ofList cs)
def SEQUENCE_OF (t : Ty) : Ty := .of false ⟨[⟨.universal, true, 16⟩], free, []⟩ t
def SET_OF (t : Ty) : Ty := .of true ⟨[⟨.universal, true, 17⟩], free, []⟩ t
/-- A CHOICE has no tag of its own. -/
def CHOICE (cs : List (Field × Ty)) : Ty := .choice ⟨[], free, []⟩ (.ofList cs)

/-- `[c n] EXPLICIT T`: one more tag, always constructed. -/
def explicit (c : Cls) (n : Nat) (t : Ty) : Ty := t.mapAttrs (fun a => { a with tags := a.tags ++ [⟨c, true, n⟩] })

/-- `[c n] IMPLICIT T`: another class and number for the outermost tag; X.680, 31.2.7: explicit nonetheless if
there is no tag, as for an untagged CHOICE or ANY. -/
def implicit (c : Cls) (n : Nat) (t : Ty) : Ty :=
  match t.tags.getLast? with
  | none => explicit c n t
  | some l => t.mapAttrs (fun a => { a with tags := a.tags.dropLast ++ [⟨c, l.constructed, n⟩] })

/-- `T (c)` -/
def constrained (c : Constraint) (t : Ty) : Ty :=
  t.mapAttrs (fun a => { a with spec := .inter (.cons a.spec (.cons c .nil)) })

/-- `SIZE (lo..hi)` -/
def SIZE (lo hi : Int) : Constraint := .size (.fin lo) (.fin hi)
/-- `SIZE (lo..MAX)` -/
def SIZE_MAX (lo : Int) : Constraint := .size (.fin lo) .inf
/-- `(lo..hi)` -/
def RANGE (lo hi : Int) : Constraint := .range (.fin lo) (.fin hi)
/-- `(lo..MAX)` -/
def RANGE_MAX (lo : Int) : Constraint := .range (.fin lo) .inf
/-- `(v | w | ...)` -/
def VALUES (vs : List Val) : Constraint := .single vs
/-- `FROM ("...")` -/
def FROM (s : String) : Constraint := .alphabet s.toList
/-- `FROM (ALL EXCEPT "...")` of a VisibleString, whose characters are those from space to tilde. -/
def FROM_EXCEPT (s : String) : Constraint :=
  .alphabet (((List.range 95).map (fun n => Char.ofNat (n + 32))).filter (fun c => !s.toList.contains c))
/-- `WITH COMPONENTS {..., c PRESENT, d ABSENT}` -/
def WITH_COMPONENTS (cs : List (String × Bool)) : Constraint := .withComps cs
/-- `c | d` -/
def EITHER (c d : Constraint) : Constraint := .union (.cons c (.cons d .nil))

end X680
end Spec
end Verif
