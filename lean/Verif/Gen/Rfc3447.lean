import Verif.Py.Obj
import Verif.Gen.Rfc2437

/-! Transcription of /repo/pyasn1_modules/rfc3447.py (generated by tools/gen.py). -/

namespace Verif
namespace Rfc3447

/-- rfc3447.py:20-25 `class OtherPrimeInfo(univ.Sequence)` -/
def OtherPrimeInfo : Py.Obj :=
  Py.univ.Sequence.setComponentType (Py.NamedTypes [
    Py.NamedType "prime" Py.univ.Integer.call,
    Py.NamedType "exponent" Py.univ.Integer.call,
    Py.NamedType "coefficient" Py.univ.Integer.call])

/-- rfc3447.py:28-30 `class OtherPrimeInfos(univ.SequenceOf)` -/
def OtherPrimeInfos : Py.Obj :=
  (Py.univ.SequenceOf.setComponentTypeOf Rfc3447.OtherPrimeInfo.call).setSizeSpec (Py.univ.SequenceOf.sizeSpec.add (Py.ValueSizeConstraint (.fin 1) Rfc2437.MAX))

/-- rfc3447.py:33-45 `class RSAPrivateKey(univ.Sequence)` -/
def RSAPrivateKey : Py.Obj :=
  Py.univ.Sequence.setComponentType (Py.NamedTypes [
    Py.NamedType "version" (Py.univ.Integer.call.setNamedValues (Py.NamedValues [("two-prime", 0), ("multi", 1)])),
    Py.NamedType "modulus" Py.univ.Integer.call,
    Py.NamedType "publicExponent" Py.univ.Integer.call,
    Py.NamedType "privateExponent" Py.univ.Integer.call,
    Py.NamedType "prime1" Py.univ.Integer.call,
    Py.NamedType "prime2" Py.univ.Integer.call,
    Py.NamedType "exponent1" Py.univ.Integer.call,
    Py.NamedType "exponent2" Py.univ.Integer.call,
    Py.NamedType "coefficient" Py.univ.Integer.call,
    Py.OptionalNamedType "otherPrimeInfos" Rfc3447.OtherPrimeInfos.call])

/-- Modules of this package imported by rfc3447.py, in textual order. -/
def imports : List Py.Ident :=
  [(Py.mod 9 "rfc2437")]

/-- Dictionary operations executed when rfc3447.py is imported, in program order. -/
def effects : List Py.Effect :=
  []

/-- ASN.1 types rfc3447.py binds at module level (final version of each name), plus nested classes. -/
def classes : List (String × Py.Obj) :=
  [("rfc3447.RSAPrivateKey", Rfc3447.RSAPrivateKey),
   ("rfc3447.OtherPrimeInfo", Rfc3447.OtherPrimeInfo),
   ("rfc3447.OtherPrimeInfos", Rfc3447.OtherPrimeInfos)]

/-- pyasn1 instances rfc3447.py binds at module level. -/
def objects : List (String × Py.Obj) :=
  []

/-- pyasn1 instances rfc3447.py fills in by item assignment. -/
def protos : List (String × Py.Proto) :=
  []

/-- Every place of rfc3447.py that instantiates a class of the package: where, the class as it is
at that point, and the class as it is when the import has finished. -/
def snapshots : List Py.Snapshot :=
  [⟨"rfc3447.py:29", Rfc3447.OtherPrimeInfo, Rfc3447.OtherPrimeInfo⟩,
   ⟨"rfc3447.py:44", Rfc3447.OtherPrimeInfos, Rfc3447.OtherPrimeInfos⟩]

/-- Functions rfc3447.py defines. -/
def builders : List (String × (List Py.OidArg → Py.Obj)) :=
  []

def asModule : Py.Module :=
  { id := (Py.mod 40 "rfc3447"), imports := imports, effects := effects, classes := classes, objects := objects, protos := protos, snapshots := snapshots, builders := builders }

end Rfc3447
end Verif
