import Verif.Py.Obj
import Verif.Gen.Rfc5280

/-! Transcription of /repo/pyasn1_modules/rfc4476.py (generated by tools/gen.py). -/

namespace Verif
namespace Rfc4476

/-- rfc4476.py:22 -/
def MAX : Py.Bound :=
  .inf

/-- rfc4476.py:27 alias of `rfc5280.PolicyQualifierId` -/
def PolicyQualifierId : Py.Obj :=
  Rfc5280.PolicyQualifierId

/-- rfc4476.py:29 alias of `rfc5280.PolicyQualifierInfo` -/
def PolicyQualifierInfo : Py.Obj :=
  Rfc5280.PolicyQualifierInfo

/-- rfc4476.py:31 alias of `rfc5280.UserNotice` -/
def UserNotice : Py.Obj :=
  Rfc5280.UserNotice

/-- rfc4476.py:33 alias of `rfc5280.id_pkix` -/
def id_pkix : Py.Obj :=
  Rfc5280.id_pkix

/-- rfc4476.py:38 -/
def id_pe : Py.Obj :=
  (Rfc4476.id_pkix.addArcs [1])

/-- rfc4476.py:40 -/
def id_pe_acPolicies : Py.Obj :=
  (Rfc4476.id_pe.addArcs [15])

/-- rfc4476.py:42 -/
def id_qt : Py.Obj :=
  (Rfc4476.id_pkix.addArcs [2])

/-- rfc4476.py:44 -/
def id_qt_acps : Py.Obj :=
  (Rfc4476.id_qt.addArcs [4])

/-- rfc4476.py:46 -/
def id_qt_acunotice : Py.Obj :=
  (Rfc4476.id_qt.addArcs [5])

/-- rfc4476.py:51-52 `class ACUserNotice(UserNotice)` -/
def ACUserNotice : Py.Obj :=
  Rfc4476.UserNotice

/-- rfc4476.py:55-56 `class ACPSuri(char.IA5String)` -/
def ACPSuri : Py.Obj :=
  Py.char.IA5String

/-- rfc4476.py:59-60 `class AcPolicyId(univ.ObjectIdentifier)` -/
def AcPolicyId : Py.Obj :=
  Py.univ.ObjectIdentifier

/-- rfc4476.py:63-69 `class PolicyInformation(univ.Sequence)` -/
def PolicyInformation : Py.Obj :=
  Py.univ.Sequence.setComponentType (Py.NamedTypes [
    Py.NamedType "policyIdentifier" Rfc4476.AcPolicyId.call,
    Py.OptionalNamedType "policyQualifiers" ((Py.univ.SequenceOf.call.setComponentTypeOf Rfc4476.PolicyQualifierInfo.call).addSubtypeSpec (Py.ValueSizeConstraint (.fin 1) Rfc4476.MAX))])

/-- rfc4476.py:72-74 `class AcPoliciesSyntax(univ.SequenceOf)` -/
def AcPoliciesSyntax : Py.Obj :=
  (Py.univ.SequenceOf.setComponentTypeOf Rfc4476.PolicyInformation.call).setSubtypeSpec (Py.ValueSizeConstraint (.fin 1) Rfc4476.MAX)

/-- rfc4476.py:79-82 -/
def _policyQualifierInfoMapUpdate : Py.Entries :=
  [(Rfc4476.id_qt_acps.value, Rfc4476.ACPSuri.call.ty),
    (Rfc4476.id_qt_acunotice.value, Rfc4476.UserNotice.call.ty)]

/-- rfc4476.py:89-91 -/
def _certificateExtensionsMapUpdate : Py.Entries :=
  [(Rfc4476.id_pe_acPolicies.value, Rfc4476.AcPoliciesSyntax.call.ty)]

/-- Modules of this package imported by rfc4476.py, in textual order. -/
def imports : List Py.Ident :=
  [(Py.mod 15 "rfc5280")]

/-- Dictionary operations executed when rfc4476.py is imported, in program order. -/
def effects : List Py.Effect :=
  [.create (Py.map 66 "rfc4476._policyQualifierInfoMapUpdate") Rfc4476._policyQualifierInfoMapUpdate /- rfc4476.py:79-82 -/,
   .update (Py.map 7 "rfc5280.policyQualifierInfoMap") Rfc4476._policyQualifierInfoMapUpdate /- rfc4476.py:84 -/,
   .create (Py.map 67 "rfc4476._certificateExtensionsMapUpdate") Rfc4476._certificateExtensionsMapUpdate /- rfc4476.py:89-91 -/,
   .update (Py.map 48 "rfc5280.certificateExtensionsMap") Rfc4476._certificateExtensionsMapUpdate /- rfc4476.py:93 -/]

/-- ASN.1 types rfc4476.py binds at module level (final version of each name), plus nested classes. -/
def classes : List (String × Py.Obj) :=
  [("rfc4476.PolicyQualifierId", Rfc4476.PolicyQualifierId),
   ("rfc4476.PolicyQualifierInfo", Rfc4476.PolicyQualifierInfo),
   ("rfc4476.UserNotice", Rfc4476.UserNotice),
   ("rfc4476.ACUserNotice", Rfc4476.ACUserNotice),
   ("rfc4476.ACPSuri", Rfc4476.ACPSuri),
   ("rfc4476.AcPolicyId", Rfc4476.AcPolicyId),
   ("rfc4476.PolicyInformation", Rfc4476.PolicyInformation),
   ("rfc4476.AcPoliciesSyntax", Rfc4476.AcPoliciesSyntax)]

/-- pyasn1 instances rfc4476.py binds at module level. -/
def objects : List (String × Py.Obj) :=
  [("rfc4476.id_pkix", Rfc4476.id_pkix),
   ("rfc4476.id_pe", Rfc4476.id_pe),
   ("rfc4476.id_pe_acPolicies", Rfc4476.id_pe_acPolicies),
   ("rfc4476.id_qt", Rfc4476.id_qt),
   ("rfc4476.id_qt_acps", Rfc4476.id_qt_acps),
   ("rfc4476.id_qt_acunotice", Rfc4476.id_qt_acunotice)]

/-- pyasn1 instances rfc4476.py fills in by item assignment. -/
def protos : List (String × Py.Proto) :=
  []

/-- Every place of rfc4476.py that instantiates a class of the package: where, the class as it is
at that point, and the class as it is when the import has finished. -/
def snapshots : List Py.Snapshot :=
  [⟨"rfc4476.py:65", Rfc4476.AcPolicyId, Rfc4476.AcPolicyId⟩,
   ⟨"rfc4476.py:67", Rfc4476.PolicyQualifierInfo, Rfc4476.PolicyQualifierInfo⟩,
   ⟨"rfc4476.py:73", Rfc4476.PolicyInformation, Rfc4476.PolicyInformation⟩,
   ⟨"rfc4476.py:80", Rfc4476.ACPSuri, Rfc4476.ACPSuri⟩,
   ⟨"rfc4476.py:81", Rfc4476.UserNotice, Rfc4476.UserNotice⟩,
   ⟨"rfc4476.py:90", Rfc4476.AcPoliciesSyntax, Rfc4476.AcPoliciesSyntax⟩]

/-- Functions rfc4476.py defines. -/
def builders : List (String × (List Py.OidArg → Py.Obj)) :=
  []

def asModule : Py.Module :=
  { id := (Py.mod 60 "rfc4476"), imports := imports, effects := effects, classes := classes, objects := objects, protos := protos, snapshots := snapshots, builders := builders }

end Rfc4476
end Verif
