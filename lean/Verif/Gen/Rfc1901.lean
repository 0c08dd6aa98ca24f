import Verif.Py.Obj

/-! Transcription of /repo/pyasn1_modules/rfc1901.py (generated by tools/gen.py). -/

namespace Verif
namespace Rfc1901

/-- rfc1901.py:17-22 `class Message(univ.Sequence)` -/
def Message : Py.Obj :=
  Py.univ.Sequence.setComponentType (Py.NamedTypes [
    Py.NamedType "version" (Py.univ.Integer.call.setNamedValues (Py.NamedValues [("version-2c", 1)])),
    Py.NamedType "community" Py.univ.OctetString.call,
    Py.NamedType "data" Py.univ.Any.call])

/-- Modules of this package imported by rfc1901.py, in textual order. -/
def imports : List Py.Ident :=
  []

/-- Dictionary operations executed when rfc1901.py is imported, in program order. -/
def effects : List Py.Effect :=
  []

/-- ASN.1 types rfc1901.py binds at module level (final version of each name), plus nested classes. -/
def classes : List (String × Py.Obj) :=
  [("rfc1901.Message", Rfc1901.Message)]

/-- pyasn1 instances rfc1901.py binds at module level. -/
def objects : List (String × Py.Obj) :=
  []

/-- pyasn1 instances rfc1901.py fills in by item assignment. -/
def protos : List (String × Py.Proto) :=
  []

/-- Every place of rfc1901.py that instantiates a class of the package: where, the class as it is
at that point, and the class as it is when the import has finished. -/
def snapshots : List Py.Snapshot :=
  []

/-- Functions rfc1901.py defines. -/
def builders : List (String × (List Py.OidArg → Py.Obj)) :=
  []

def asModule : Py.Module :=
  { id := (Py.mod 2 "rfc1901"), imports := imports, effects := effects, classes := classes, objects := objects, protos := protos, snapshots := snapshots, builders := builders }

end Rfc1901
end Verif
