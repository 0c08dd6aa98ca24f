import Verif.Py.Obj
import Verif.Gen.Rfc3779
import Verif.Gen.Rfc5280

/-! Transcription of /repo/pyasn1_modules/rfc8360.py (generated by tools/gen.py). -/

namespace Verif
namespace Rfc8360

/-- rfc8360.py:24 -/
def id_pe_ipAddrBlocks_v2 : Py.Obj :=
  (Py.univ.ObjectIdentifier.call.callArcs [1, 3, 6, 1, 5, 5, 7, 1, 28])

/-- rfc8360.py:26 alias of `rfc3779.IPAddrBlocks` -/
def IPAddrBlocks : Py.Obj :=
  Rfc3779.IPAddrBlocks

/-- rfc8360.py:31 -/
def id_pe_autonomousSysIds_v2 : Py.Obj :=
  (Py.univ.ObjectIdentifier.call.callArcs [1, 3, 6, 1, 5, 5, 7, 1, 29])

/-- rfc8360.py:33 alias of `rfc3779.ASIdentifiers` -/
def ASIdentifiers : Py.Obj :=
  Rfc3779.ASIdentifiers

/-- rfc8360.py:39-42 -/
def _certificateExtensionsMapUpdate : Py.Entries :=
  [(Rfc8360.id_pe_ipAddrBlocks_v2.value, Rfc8360.IPAddrBlocks.call.ty),
    (Rfc8360.id_pe_autonomousSysIds_v2.value, Rfc8360.ASIdentifiers.call.ty)]

/-- Modules of this package imported by rfc8360.py, in textual order. -/
def imports : List Py.Ident :=
  [(Py.mod 49 "rfc3779"), (Py.mod 15 "rfc5280")]

/-- Dictionary operations executed when rfc8360.py is imported, in program order. -/
def effects : List Py.Effect :=
  [.create (Py.map 138 "rfc8360._certificateExtensionsMapUpdate") Rfc8360._certificateExtensionsMapUpdate /- rfc8360.py:39-42 -/,
   .update (Py.map 48 "rfc5280.certificateExtensionsMap") Rfc8360._certificateExtensionsMapUpdate /- rfc8360.py:44 -/]

/-- ASN.1 types rfc8360.py binds at module level (final version of each name), plus nested classes. -/
def classes : List (String × Py.Obj) :=
  [("rfc8360.IPAddrBlocks", Rfc8360.IPAddrBlocks),
   ("rfc8360.ASIdentifiers", Rfc8360.ASIdentifiers)]

/-- pyasn1 instances rfc8360.py binds at module level. -/
def objects : List (String × Py.Obj) :=
  [("rfc8360.id_pe_ipAddrBlocks_v2", Rfc8360.id_pe_ipAddrBlocks_v2),
   ("rfc8360.id_pe_autonomousSysIds_v2", Rfc8360.id_pe_autonomousSysIds_v2)]

/-- pyasn1 instances rfc8360.py fills in by item assignment. -/
def protos : List (String × Py.Proto) :=
  []

/-- Every place of rfc8360.py that instantiates a class of the package: where, the class as it is
at that point, and the class as it is when the import has finished. -/
def snapshots : List Py.Snapshot :=
  [⟨"rfc8360.py:40", Rfc8360.IPAddrBlocks, Rfc8360.IPAddrBlocks⟩,
   ⟨"rfc8360.py:41", Rfc8360.ASIdentifiers, Rfc8360.ASIdentifiers⟩]

/-- Functions rfc8360.py defines. -/
def builders : List (String × (List Py.OidArg → Py.Obj)) :=
  []

def asModule : Py.Module :=
  { id := (Py.mod 115 "rfc8360"), imports := imports, effects := effects, classes := classes, objects := objects, protos := protos, snapshots := snapshots, builders := builders }

end Rfc8360
end Verif
