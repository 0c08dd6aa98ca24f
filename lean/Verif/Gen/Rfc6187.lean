import Verif.Py.Obj

/-! Transcription of /repo/pyasn1_modules/rfc6187.py (generated by tools/gen.py). -/

namespace Verif
namespace Rfc6187

/-- rfc6187.py:17 -/
def id_pkix : Py.Obj :=
  (Py.univ.ObjectIdentifier.call.callArcs [1, 3, 6, 1, 5, 5, 7])

/-- rfc6187.py:19 -/
def id_kp : Py.Obj :=
  (Rfc6187.id_pkix.addArcs [3])

/-- rfc6187.py:21 -/
def id_kp_secureShellClient : Py.Obj :=
  (Rfc6187.id_kp.addArcs [21])

/-- rfc6187.py:22 -/
def id_kp_secureShellServer : Py.Obj :=
  (Rfc6187.id_kp.addArcs [22])

/-- Modules of this package imported by rfc6187.py, in textual order. -/
def imports : List Py.Ident :=
  []

/-- Dictionary operations executed when rfc6187.py is imported, in program order. -/
def effects : List Py.Effect :=
  []

/-- ASN.1 types rfc6187.py binds at module level (final version of each name), plus nested classes. -/
def classes : List (String × Py.Obj) :=
  []

/-- pyasn1 instances rfc6187.py binds at module level. -/
def objects : List (String × Py.Obj) :=
  [("rfc6187.id_pkix", Rfc6187.id_pkix),
   ("rfc6187.id_kp", Rfc6187.id_kp),
   ("rfc6187.id_kp_secureShellClient", Rfc6187.id_kp_secureShellClient),
   ("rfc6187.id_kp_secureShellServer", Rfc6187.id_kp_secureShellServer)]

/-- pyasn1 instances rfc6187.py fills in by item assignment. -/
def protos : List (String × Py.Proto) :=
  []

/-- Every place of rfc6187.py that instantiates a class of the package: where, the class as it is
at that point, and the class as it is when the import has finished. -/
def snapshots : List Py.Snapshot :=
  []

/-- Functions rfc6187.py defines. -/
def builders : List (String × (List Py.OidArg → Py.Obj)) :=
  []

def asModule : Py.Module :=
  { id := (Py.mod 90 "rfc6187"), imports := imports, effects := effects, classes := classes, objects := objects, protos := protos, snapshots := snapshots, builders := builders }

end Rfc6187
end Verif
