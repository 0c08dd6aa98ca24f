import Verif.Py.Obj
import Verif.Gen.Rfc5280

/-! Transcription of /repo/pyasn1_modules/rfc4985.py (generated by tools/gen.py). -/

namespace Verif
namespace Rfc4985

/-- rfc4985.py:21 -/
def MAX : Py.Bound :=
  .inf

/-- rfc4985.py:26 alias of `rfc5280.id_pkix` -/
def id_pkix : Py.Obj :=
  Rfc5280.id_pkix

/-- rfc4985.py:28 -/
def id_on : Py.Obj :=
  (Rfc4985.id_pkix.addArcs [8])

/-- rfc4985.py:30 -/
def id_on_dnsSRV : Py.Obj :=
  (Rfc4985.id_on.addArcs [7])

/-- rfc4985.py:33-34 `class SRVName(char.IA5String)` -/
def SRVName : Py.Obj :=
  Py.char.IA5String.setSubtypeSpec (Py.ValueSizeConstraint (.fin 1) Rfc4985.MAX)

/-- rfc4985.py:37 -/
def srvName__0 : Py.Proto :=
  { obj := Rfc5280.AnotherName.call }

/-- rfc4985.py:38 `srvName['type-id'] = ...` -/
def srvName__1 : Py.Proto :=
  Rfc4985.srvName__0.set "type-id" (.obj Rfc4985.id_on_dnsSRV)

/-- rfc4985.py:39 `srvName['value'] = ...` -/
def srvName : Py.Proto :=
  Rfc4985.srvName__1.set "value" (.obj Rfc4985.SRVName.call)

/-- rfc4985.py:45-47 -/
def _anotherNameMapUpdate : Py.Entries :=
  [(Rfc4985.id_on_dnsSRV.value, Rfc4985.SRVName.call.ty)]

/-- Modules of this package imported by rfc4985.py, in textual order. -/
def imports : List Py.Ident :=
  [(Py.mod 15 "rfc5280")]

/-- Dictionary operations executed when rfc4985.py is imported, in program order. -/
def effects : List Py.Effect :=
  [.create (Py.map 70 "rfc4985._anotherNameMapUpdate") Rfc4985._anotherNameMapUpdate /- rfc4985.py:45-47 -/,
   .update (Py.map 6 "rfc5280.anotherNameMap") Rfc4985._anotherNameMapUpdate /- rfc4985.py:49 -/]

/-- ASN.1 types rfc4985.py binds at module level (final version of each name), plus nested classes. -/
def classes : List (String × Py.Obj) :=
  [("rfc4985.SRVName", Rfc4985.SRVName)]

/-- pyasn1 instances rfc4985.py binds at module level. -/
def objects : List (String × Py.Obj) :=
  [("rfc4985.id_pkix", Rfc4985.id_pkix),
   ("rfc4985.id_on", Rfc4985.id_on),
   ("rfc4985.id_on_dnsSRV", Rfc4985.id_on_dnsSRV)]

/-- pyasn1 instances rfc4985.py fills in by item assignment. -/
def protos : List (String × Py.Proto) :=
  [("rfc4985.srvName", Rfc4985.srvName)]

/-- Every place of rfc4985.py that instantiates a class of the package: where, the class as it is
at that point, and the class as it is when the import has finished. -/
def snapshots : List Py.Snapshot :=
  [⟨"rfc4985.py:37", Rfc5280.AnotherName, Rfc5280.AnotherName⟩,
   ⟨"rfc4985.py:39", Rfc4985.SRVName, Rfc4985.SRVName⟩,
   ⟨"rfc4985.py:46", Rfc4985.SRVName, Rfc4985.SRVName⟩]

/-- Functions rfc4985.py defines. -/
def builders : List (String × (List Py.OidArg → Py.Obj)) :=
  []

def asModule : Py.Module :=
  { id := (Py.mod 64 "rfc4985"), imports := imports, effects := effects, classes := classes, objects := objects, protos := protos, snapshots := snapshots, builders := builders }

end Rfc4985
end Verif
