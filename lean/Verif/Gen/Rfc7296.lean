import Verif.Py.Obj
import Verif.Gen.Rfc5280

/-! Transcription of /repo/pyasn1_modules/rfc7296.py (generated by tools/gen.py). -/

namespace Verif
namespace Rfc7296

/-- rfc7296.py:20-21 `class CertificateOrCRL(univ.Choice)` -/
def CertificateOrCRL__0 : Py.Obj :=
  Py.univ.Choice

/-- rfc7296.py:23-26 `CertificateOrCRL.componentType = ...` -/
def CertificateOrCRL : Py.Obj :=
  Rfc7296.CertificateOrCRL__0.setComponentType (Py.NamedTypes [
    Py.NamedType "cert" (Rfc5280.Certificate.call.explicitTag (Py.Tag .context false 0)),
    Py.NamedType "crl" (Rfc5280.CertificateList.call.explicitTag (Py.Tag .context false 1))])

/-- rfc7296.py:29-30 `class CertificateBundle(univ.SequenceOf)` -/
def CertificateBundle__0 : Py.Obj :=
  Py.univ.SequenceOf

/-- rfc7296.py:32 `CertificateBundle.componentType = ...` -/
def CertificateBundle : Py.Obj :=
  Rfc7296.CertificateBundle__0.setComponentTypeOf Rfc7296.CertificateOrCRL.call

/-- Modules of this package imported by rfc7296.py, in textual order. -/
def imports : List Py.Ident :=
  [(Py.mod 15 "rfc5280")]

/-- Dictionary operations executed when rfc7296.py is imported, in program order. -/
def effects : List Py.Effect :=
  []

/-- ASN.1 types rfc7296.py binds at module level (final version of each name), plus nested classes. -/
def classes : List (String × Py.Obj) :=
  [("rfc7296.CertificateOrCRL", Rfc7296.CertificateOrCRL),
   ("rfc7296.CertificateBundle", Rfc7296.CertificateBundle)]

/-- pyasn1 instances rfc7296.py binds at module level. -/
def objects : List (String × Py.Obj) :=
  []

/-- pyasn1 instances rfc7296.py fills in by item assignment. -/
def protos : List (String × Py.Proto) :=
  []

/-- Every place of rfc7296.py that instantiates a class of the package: where, the class as it is
at that point, and the class as it is when the import has finished. -/
def snapshots : List Py.Snapshot :=
  [⟨"rfc7296.py:24", Rfc5280.Certificate, Rfc5280.Certificate⟩,
   ⟨"rfc7296.py:25", Rfc5280.CertificateList, Rfc5280.CertificateList⟩,
   ⟨"rfc7296.py:32", Rfc7296.CertificateOrCRL, Rfc7296.CertificateOrCRL⟩]

/-- Functions rfc7296.py defines. -/
def builders : List (String × (List Py.OidArg → Py.Obj)) :=
  []

def asModule : Py.Module :=
  { id := (Py.mod 102 "rfc7296"), imports := imports, effects := effects, classes := classes, objects := objects, protos := protos, snapshots := snapshots, builders := builders }

end Rfc7296
end Verif
