import Verif.Py.Obj
import Verif.Gen.Rfc5280

/-! Transcription of /repo/pyasn1_modules/rfc7585.py (generated by tools/gen.py). -/

namespace Verif
namespace Rfc7585

/-- rfc7585.py:24 -/
def id_pkix : Py.Obj :=
  (Py.univ.ObjectIdentifier.call.callArcs [1, 3, 6, 1, 5, 5, 7])

/-- rfc7585.py:26 -/
def id_on : Py.Obj :=
  (Rfc7585.id_pkix.addArcs [8])

/-- rfc7585.py:28 -/
def id_on_naiRealm : Py.Obj :=
  (Rfc7585.id_on.addArcs [8])

/-- rfc7585.py:31 -/
def ub_naiRealm_length : Py.Obj :=
  (Py.univ.Integer.call.callInt 255)

/-- rfc7585.py:34-35 `class NAIRealm(char.UTF8String)` -/
def NAIRealm : Py.Obj :=
  Py.char.UTF8String.setSubtypeSpec (Py.ValueSizeConstraint (.fin 1) Rfc7585.ub_naiRealm_length.bound)

/-- rfc7585.py:38 -/
def naiRealm__0 : Py.Proto :=
  { obj := Rfc5280.AnotherName.call }

/-- rfc7585.py:39 `naiRealm['type-id'] = ...` -/
def naiRealm__1 : Py.Proto :=
  Rfc7585.naiRealm__0.set "type-id" (.obj Rfc7585.id_on_naiRealm)

/-- rfc7585.py:40 `naiRealm['value'] = ...` -/
def naiRealm : Py.Proto :=
  Rfc7585.naiRealm__1.set "value" (.obj Rfc7585.NAIRealm.call)

/-- rfc7585.py:46-48 -/
def _anotherNameMapUpdate : Py.Entries :=
  [(Rfc7585.id_on_naiRealm.value, Rfc7585.NAIRealm.call.ty)]

/-- Modules of this package imported by rfc7585.py, in textual order. -/
def imports : List Py.Ident :=
  [(Py.mod 15 "rfc5280")]

/-- Dictionary operations executed when rfc7585.py is imported, in program order. -/
def effects : List Py.Effect :=
  [.create (Py.map 128 "rfc7585._anotherNameMapUpdate") Rfc7585._anotherNameMapUpdate /- rfc7585.py:46-48 -/,
   .update (Py.map 6 "rfc5280.anotherNameMap") Rfc7585._anotherNameMapUpdate /- rfc7585.py:50 -/]

/-- ASN.1 types rfc7585.py binds at module level (final version of each name), plus nested classes. -/
def classes : List (String × Py.Obj) :=
  [("rfc7585.NAIRealm", Rfc7585.NAIRealm)]

/-- pyasn1 instances rfc7585.py binds at module level. -/
def objects : List (String × Py.Obj) :=
  [("rfc7585.id_pkix", Rfc7585.id_pkix),
   ("rfc7585.id_on", Rfc7585.id_on),
   ("rfc7585.id_on_naiRealm", Rfc7585.id_on_naiRealm),
   ("rfc7585.ub_naiRealm_length", Rfc7585.ub_naiRealm_length)]

/-- pyasn1 instances rfc7585.py fills in by item assignment. -/
def protos : List (String × Py.Proto) :=
  [("rfc7585.naiRealm", Rfc7585.naiRealm)]

/-- Every place of rfc7585.py that instantiates a class of the package: where, the class as it is
at that point, and the class as it is when the import has finished. -/
def snapshots : List Py.Snapshot :=
  [⟨"rfc7585.py:38", Rfc5280.AnotherName, Rfc5280.AnotherName⟩,
   ⟨"rfc7585.py:40", Rfc7585.NAIRealm, Rfc7585.NAIRealm⟩,
   ⟨"rfc7585.py:47", Rfc7585.NAIRealm, Rfc7585.NAIRealm⟩]

/-- Functions rfc7585.py defines. -/
def builders : List (String × (List Py.OidArg → Py.Obj)) :=
  []

def asModule : Py.Module :=
  { id := (Py.mod 104 "rfc7585"), imports := imports, effects := effects, classes := classes, objects := objects, protos := protos, snapshots := snapshots, builders := builders }

end Rfc7585
end Verif
