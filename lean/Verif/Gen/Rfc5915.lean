import Verif.Py.Obj
import Verif.Gen.Rfc5480

/-! Transcription of /repo/pyasn1_modules/rfc5915.py (generated by tools/gen.py). -/

namespace Verif
namespace Rfc5915

/-- rfc5915.py:21-22 `class ECPrivateKey(univ.Sequence)` -/
def ECPrivateKey__0 : Py.Obj :=
  Py.univ.Sequence

/-- rfc5915.py:24-32 `ECPrivateKey.componentType = ...` -/
def ECPrivateKey : Py.Obj :=
  Rfc5915.ECPrivateKey__0.setComponentType (Py.NamedTypes [
    Py.NamedType "version" (Py.univ.Integer.call.setNamedValues (Py.NamedValues [("ecPrivkeyVer1", 1)])),
    Py.NamedType "privateKey" Py.univ.OctetString.call,
    Py.OptionalNamedType "parameters" (Rfc5480.ECParameters.call.explicitTag (Py.Tag .context false 0)),
    Py.OptionalNamedType "publicKey" (Py.univ.BitString.call.explicitTag (Py.Tag .context false 1))])

/-- Modules of this package imported by rfc5915.py, in textual order. -/
def imports : List Py.Ident :=
  [(Py.mod 34 "rfc5480")]

/-- Dictionary operations executed when rfc5915.py is imported, in program order. -/
def effects : List Py.Effect :=
  []

/-- ASN.1 types rfc5915.py binds at module level (final version of each name), plus nested classes. -/
def classes : List (String × Py.Obj) :=
  [("rfc5915.ECPrivateKey", Rfc5915.ECPrivateKey)]

/-- pyasn1 instances rfc5915.py binds at module level. -/
def objects : List (String × Py.Obj) :=
  []

/-- pyasn1 instances rfc5915.py fills in by item assignment. -/
def protos : List (String × Py.Proto) :=
  []

/-- Every place of rfc5915.py that instantiates a class of the package: where, the class as it is
at that point, and the class as it is when the import has finished. -/
def snapshots : List Py.Snapshot :=
  [⟨"rfc5915.py:28", Rfc5480.ECParameters, Rfc5480.ECParameters⟩]

/-- Functions rfc5915.py defines. -/
def builders : List (String × (List Py.OidArg → Py.Obj)) :=
  []

def asModule : Py.Module :=
  { id := (Py.mod 79 "rfc5915"), imports := imports, effects := effects, classes := classes, objects := objects, protos := protos, snapshots := snapshots, builders := builders }

end Rfc5915
end Verif
