import Verif.Py.Obj

/-! Transcription of /repo/pyasn1_modules/rfc4387.py (generated by tools/gen.py). -/

namespace Verif
namespace Rfc4387

/-- rfc4387.py:19 -/
def id_ad : Py.Obj :=
  (Py.univ.ObjectIdentifier.call.callArcs [1, 3, 6, 1, 5, 5, 7, 48])

/-- rfc4387.py:21 -/
def id_ad_http_certs : Py.Obj :=
  (Rfc4387.id_ad.addArcs [6])

/-- rfc4387.py:23 -/
def id_ad_http_crls : Py.Obj :=
  (Rfc4387.id_ad.addArcs [7])

/-- Modules of this package imported by rfc4387.py, in textual order. -/
def imports : List Py.Ident :=
  []

/-- Dictionary operations executed when rfc4387.py is imported, in program order. -/
def effects : List Py.Effect :=
  []

/-- ASN.1 types rfc4387.py binds at module level (final version of each name), plus nested classes. -/
def classes : List (String × Py.Obj) :=
  []

/-- pyasn1 instances rfc4387.py binds at module level. -/
def objects : List (String × Py.Obj) :=
  [("rfc4387.id_ad", Rfc4387.id_ad),
   ("rfc4387.id_ad_http_certs", Rfc4387.id_ad_http_certs),
   ("rfc4387.id_ad_http_crls", Rfc4387.id_ad_http_crls)]

/-- pyasn1 instances rfc4387.py fills in by item assignment. -/
def protos : List (String × Py.Proto) :=
  []

/-- Every place of rfc4387.py that instantiates a class of the package: where, the class as it is
at that point, and the class as it is when the import has finished. -/
def snapshots : List Py.Snapshot :=
  []

/-- Functions rfc4387.py defines. -/
def builders : List (String × (List Py.OidArg → Py.Obj)) :=
  []

def asModule : Py.Module :=
  { id := (Py.mod 59 "rfc4387"), imports := imports, effects := effects, classes := classes, objects := objects, protos := protos, snapshots := snapshots, builders := builders }

end Rfc4387
end Verif
