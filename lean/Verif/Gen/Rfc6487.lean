import Verif.Py.Obj

/-! Transcription of /repo/pyasn1_modules/rfc6487.py (generated by tools/gen.py). -/

namespace Verif
namespace Rfc6487

/-- rfc6487.py:17 -/
def id_pkix : Py.Obj :=
  (Py.univ.ObjectIdentifier.call.callArcs [1, 3, 6, 1, 5, 5, 7])

/-- rfc6487.py:19 -/
def id_ad : Py.Obj :=
  (Rfc6487.id_pkix.addArcs [48])

/-- rfc6487.py:21 -/
def id_ad_rpkiManifest : Py.Obj :=
  (Rfc6487.id_ad.addArcs [10])

/-- rfc6487.py:22 -/
def id_ad_signedObject : Py.Obj :=
  (Rfc6487.id_ad.addArcs [11])

/-- Modules of this package imported by rfc6487.py, in textual order. -/
def imports : List Py.Ident :=
  []

/-- Dictionary operations executed when rfc6487.py is imported, in program order. -/
def effects : List Py.Effect :=
  []

/-- ASN.1 types rfc6487.py binds at module level (final version of each name), plus nested classes. -/
def classes : List (String × Py.Obj) :=
  []

/-- pyasn1 instances rfc6487.py binds at module level. -/
def objects : List (String × Py.Obj) :=
  [("rfc6487.id_pkix", Rfc6487.id_pkix),
   ("rfc6487.id_ad", Rfc6487.id_ad),
   ("rfc6487.id_ad_rpkiManifest", Rfc6487.id_ad_rpkiManifest),
   ("rfc6487.id_ad_signedObject", Rfc6487.id_ad_signedObject)]

/-- pyasn1 instances rfc6487.py fills in by item assignment. -/
def protos : List (String × Py.Proto) :=
  []

/-- Every place of rfc6487.py that instantiates a class of the package: where, the class as it is
at that point, and the class as it is when the import has finished. -/
def snapshots : List Py.Snapshot :=
  []

/-- Functions rfc6487.py defines. -/
def builders : List (String × (List Py.OidArg → Py.Obj)) :=
  []

def asModule : Py.Module :=
  { id := (Py.mod 96 "rfc6487"), imports := imports, effects := effects, classes := classes, objects := objects, protos := protos, snapshots := snapshots, builders := builders }

end Rfc6487
end Verif
