import Verif.Py.Obj
import Verif.Gen.Rfc5280

/-! Transcription of /repo/pyasn1_modules/rfc3820.py (generated by tools/gen.py). -/

namespace Verif
namespace Rfc3820

/-- rfc3820.py:22-23 `class ProxyCertPathLengthConstraint(univ.Integer)` -/
def ProxyCertPathLengthConstraint : Py.Obj :=
  Py.univ.Integer

/-- rfc3820.py:26-30 `class ProxyPolicy(univ.Sequence)` -/
def ProxyPolicy : Py.Obj :=
  Py.univ.Sequence.setComponentType (Py.NamedTypes [
    Py.NamedType "policyLanguage" Py.univ.ObjectIdentifier.call,
    Py.OptionalNamedType "policy" Py.univ.OctetString.call])

/-- rfc3820.py:33-38 `class ProxyCertInfoExtension(univ.Sequence)` -/
def ProxyCertInfoExtension : Py.Obj :=
  Py.univ.Sequence.setComponentType (Py.NamedTypes [
    Py.OptionalNamedType "pCPathLenConstraint" Rfc3820.ProxyCertPathLengthConstraint.call,
    Py.NamedType "proxyPolicy" Rfc3820.ProxyPolicy.call])

/-- rfc3820.py:41 -/
def id_pkix : Py.Obj :=
  (Py.univ.ObjectIdentifier.call.callArcs [1, 3, 6, 1, 5, 5, 7])

/-- rfc3820.py:44 -/
def id_pe : Py.Obj :=
  (Rfc3820.id_pkix.addArcs [1])

/-- rfc3820.py:46 -/
def id_pe_proxyCertInfo : Py.Obj :=
  (Rfc3820.id_pe.addArcs [14])

/-- rfc3820.py:49 -/
def id_ppl : Py.Obj :=
  (Rfc3820.id_pkix.addArcs [21])

/-- rfc3820.py:51 -/
def id_ppl_anyLanguage : Py.Obj :=
  (Rfc3820.id_ppl.addArcs [0])

/-- rfc3820.py:53 -/
def id_ppl_inheritAll : Py.Obj :=
  (Rfc3820.id_ppl.addArcs [1])

/-- rfc3820.py:55 -/
def id_ppl_independent : Py.Obj :=
  (Rfc3820.id_ppl.addArcs [2])

/-- rfc3820.py:61-63 -/
def _certificateExtensionsMapUpdate : Py.Entries :=
  [(Rfc3820.id_pe_proxyCertInfo.value, Rfc3820.ProxyCertInfoExtension.call.ty)]

/-- Modules of this package imported by rfc3820.py, in textual order. -/
def imports : List Py.Ident :=
  [(Py.mod 15 "rfc5280")]

/-- Dictionary operations executed when rfc3820.py is imported, in program order. -/
def effects : List Py.Effect :=
  [.create (Py.map 54 "rfc3820._certificateExtensionsMapUpdate") Rfc3820._certificateExtensionsMapUpdate /- rfc3820.py:61-63 -/,
   .update (Py.map 48 "rfc5280.certificateExtensionsMap") Rfc3820._certificateExtensionsMapUpdate /- rfc3820.py:65 -/]

/-- ASN.1 types rfc3820.py binds at module level (final version of each name), plus nested classes. -/
def classes : List (String × Py.Obj) :=
  [("rfc3820.ProxyCertPathLengthConstraint", Rfc3820.ProxyCertPathLengthConstraint),
   ("rfc3820.ProxyPolicy", Rfc3820.ProxyPolicy),
   ("rfc3820.ProxyCertInfoExtension", Rfc3820.ProxyCertInfoExtension)]

/-- pyasn1 instances rfc3820.py binds at module level. -/
def objects : List (String × Py.Obj) :=
  [("rfc3820.id_pkix", Rfc3820.id_pkix),
   ("rfc3820.id_pe", Rfc3820.id_pe),
   ("rfc3820.id_pe_proxyCertInfo", Rfc3820.id_pe_proxyCertInfo),
   ("rfc3820.id_ppl", Rfc3820.id_ppl),
   ("rfc3820.id_ppl_anyLanguage", Rfc3820.id_ppl_anyLanguage),
   ("rfc3820.id_ppl_inheritAll", Rfc3820.id_ppl_inheritAll),
   ("rfc3820.id_ppl_independent", Rfc3820.id_ppl_independent)]

/-- pyasn1 instances rfc3820.py fills in by item assignment. -/
def protos : List (String × Py.Proto) :=
  []

/-- Every place of rfc3820.py that instantiates a class of the package: where, the class as it is
at that point, and the class as it is when the import has finished. -/
def snapshots : List Py.Snapshot :=
  [⟨"rfc3820.py:36", Rfc3820.ProxyCertPathLengthConstraint, Rfc3820.ProxyCertPathLengthConstraint⟩,
   ⟨"rfc3820.py:37", Rfc3820.ProxyPolicy, Rfc3820.ProxyPolicy⟩,
   ⟨"rfc3820.py:62", Rfc3820.ProxyCertInfoExtension, Rfc3820.ProxyCertInfoExtension⟩]

/-- Functions rfc3820.py defines. -/
def builders : List (String × (List Py.OidArg → Py.Obj)) :=
  []

def asModule : Py.Module :=
  { id := (Py.mod 50 "rfc3820"), imports := imports, effects := effects, classes := classes, objects := objects, protos := protos, snapshots := snapshots, builders := builders }

end Rfc3820
end Verif
