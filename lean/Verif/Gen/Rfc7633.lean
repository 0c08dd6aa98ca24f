import Verif.Py.Obj
import Verif.Gen.Rfc5280

/-! Transcription of /repo/pyasn1_modules/rfc7633.py (generated by tools/gen.py). -/

namespace Verif
namespace Rfc7633

/-- rfc7633.py:22 -/
def id_pe : Py.Obj :=
  (Py.univ.ObjectIdentifier.call.callArcs [1, 3, 6, 1, 5, 5, 7, 1])

/-- rfc7633.py:24 -/
def id_pe_tlsfeature : Py.Obj :=
  (Rfc7633.id_pe.addArcs [24])

/-- rfc7633.py:27-28 `class Features(univ.SequenceOf)` -/
def Features : Py.Obj :=
  Py.univ.SequenceOf.setComponentTypeOf Py.univ.Integer.call

/-- rfc7633.py:34-36 -/
def _certificateExtensionsMapUpdate : Py.Entries :=
  [(Rfc7633.id_pe_tlsfeature.value, Rfc7633.Features.call.ty)]

/-- Modules of this package imported by rfc7633.py, in textual order. -/
def imports : List Py.Ident :=
  [(Py.mod 15 "rfc5280")]

/-- Dictionary operations executed when rfc7633.py is imported, in program order. -/
def effects : List Py.Effect :=
  [.create (Py.map 129 "rfc7633._certificateExtensionsMapUpdate") Rfc7633._certificateExtensionsMapUpdate /- rfc7633.py:34-36 -/,
   .update (Py.map 48 "rfc5280.certificateExtensionsMap") Rfc7633._certificateExtensionsMapUpdate /- rfc7633.py:38 -/]

/-- ASN.1 types rfc7633.py binds at module level (final version of each name), plus nested classes. -/
def classes : List (String × Py.Obj) :=
  [("rfc7633.Features", Rfc7633.Features)]

/-- pyasn1 instances rfc7633.py binds at module level. -/
def objects : List (String × Py.Obj) :=
  [("rfc7633.id_pe", Rfc7633.id_pe),
   ("rfc7633.id_pe_tlsfeature", Rfc7633.id_pe_tlsfeature)]

/-- pyasn1 instances rfc7633.py fills in by item assignment. -/
def protos : List (String × Py.Proto) :=
  []

/-- Every place of rfc7633.py that instantiates a class of the package: where, the class as it is
at that point, and the class as it is when the import has finished. -/
def snapshots : List Py.Snapshot :=
  [⟨"rfc7633.py:35", Rfc7633.Features, Rfc7633.Features⟩]

/-- Functions rfc7633.py defines. -/
def builders : List (String × (List Py.OidArg → Py.Obj)) :=
  []

def asModule : Py.Module :=
  { id := (Py.mod 105 "rfc7633"), imports := imports, effects := effects, classes := classes, objects := objects, protos := protos, snapshots := snapshots, builders := builders }

end Rfc7633
end Verif
