import Verif.Py.Obj
import Verif.Gen.Rfc5280

/-! Transcription of /repo/pyasn1_modules/rfc7914.py (generated by tools/gen.py). -/

namespace Verif
namespace Rfc7914

/-- rfc7914.py:22 -/
def MAX : Py.Bound :=
  .inf

/-- rfc7914.py:25 -/
def id_scrypt : Py.Obj :=
  (Py.univ.ObjectIdentifier.call.callArcs [1, 3, 6, 1, 4, 1, 11591, 4, 11])

/-- rfc7914.py:28-40 `class Scrypt_params(univ.Sequence)` -/
def Scrypt_params : Py.Obj :=
  Py.univ.Sequence.setComponentType (Py.NamedTypes [
    Py.NamedType "salt" Py.univ.OctetString.call,
    Py.NamedType "costParameter" (Py.univ.Integer.call.addSubtypeSpec (Py.ValueRangeConstraint (.fin 1) Rfc7914.MAX)),
    Py.NamedType "blockSize" (Py.univ.Integer.call.addSubtypeSpec (Py.ValueRangeConstraint (.fin 1) Rfc7914.MAX)),
    Py.NamedType "parallelizationParameter" (Py.univ.Integer.call.addSubtypeSpec (Py.ValueRangeConstraint (.fin 1) Rfc7914.MAX)),
    Py.OptionalNamedType "keyLength" (Py.univ.Integer.call.addSubtypeSpec (Py.ValueRangeConstraint (.fin 1) Rfc7914.MAX))])

/-- rfc7914.py:45-47 -/
def _algorithmIdentifierMapUpdate : Py.Entries :=
  [(Rfc7914.id_scrypt.value, Rfc7914.Scrypt_params.call.ty)]

/-- Modules of this package imported by rfc7914.py, in textual order. -/
def imports : List Py.Ident :=
  [(Py.mod 15 "rfc5280")]

/-- Dictionary operations executed when rfc7914.py is imported, in program order. -/
def effects : List Py.Effect :=
  [.create (Py.map 133 "rfc7914._algorithmIdentifierMapUpdate") Rfc7914._algorithmIdentifierMapUpdate /- rfc7914.py:45-47 -/,
   .update (Py.map 3 "rfc5280.algorithmIdentifierMap") Rfc7914._algorithmIdentifierMapUpdate /- rfc7914.py:49 -/]

/-- ASN.1 types rfc7914.py binds at module level (final version of each name), plus nested classes. -/
def classes : List (String × Py.Obj) :=
  [("rfc7914.Scrypt_params", Rfc7914.Scrypt_params)]

/-- pyasn1 instances rfc7914.py binds at module level. -/
def objects : List (String × Py.Obj) :=
  [("rfc7914.id_scrypt", Rfc7914.id_scrypt)]

/-- pyasn1 instances rfc7914.py fills in by item assignment. -/
def protos : List (String × Py.Proto) :=
  []

/-- Every place of rfc7914.py that instantiates a class of the package: where, the class as it is
at that point, and the class as it is when the import has finished. -/
def snapshots : List Py.Snapshot :=
  [⟨"rfc7914.py:46", Rfc7914.Scrypt_params, Rfc7914.Scrypt_params⟩]

/-- Functions rfc7914.py defines. -/
def builders : List (String × (List Py.OidArg → Py.Obj)) :=
  []

def asModule : Py.Module :=
  { id := (Py.mod 109 "rfc7914"), imports := imports, effects := effects, classes := classes, objects := objects, protos := protos, snapshots := snapshots, builders := builders }

end Rfc7914
end Verif
