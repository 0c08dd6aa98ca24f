import Verif.Py.Obj
import Verif.Gen.Rfc5280

/-! Transcription of /repo/pyasn1_modules/rfc5914.py (generated by tools/gen.py). -/

namespace Verif
namespace Rfc5914

/-- rfc5914.py:23 -/
def MAX : Py.Bound :=
  .inf

/-- rfc5914.py:25 alias of `rfc5280.Certificate` -/
def Certificate : Py.Obj :=
  Rfc5280.Certificate

/-- rfc5914.py:27 alias of `rfc5280.Name` -/
def Name : Py.Obj :=
  Rfc5280.Name

/-- rfc5914.py:29 alias of `rfc5280.Extensions` -/
def Extensions : Py.Obj :=
  Rfc5280.Extensions

/-- rfc5914.py:31 alias of `rfc5280.SubjectPublicKeyInfo` -/
def SubjectPublicKeyInfo : Py.Obj :=
  Rfc5280.SubjectPublicKeyInfo

/-- rfc5914.py:33 alias of `rfc5280.TBSCertificate` -/
def TBSCertificate : Py.Obj :=
  Rfc5280.TBSCertificate

/-- rfc5914.py:35 alias of `rfc5280.CertificatePolicies` -/
def CertificatePolicies : Py.Obj :=
  Rfc5280.CertificatePolicies

/-- rfc5914.py:37 alias of `rfc5280.KeyIdentifier` -/
def KeyIdentifier : Py.Obj :=
  Rfc5280.KeyIdentifier

/-- rfc5914.py:39 alias of `rfc5280.NameConstraints` -/
def NameConstraints : Py.Obj :=
  Rfc5280.NameConstraints

/-- rfc5914.py:42-43 `class CertPolicyFlags(univ.BitString)` -/
def CertPolicyFlags__0 : Py.Obj :=
  Py.univ.BitString

/-- rfc5914.py:45-49 `CertPolicyFlags.namedValues = ...` -/
def CertPolicyFlags : Py.Obj :=
  Rfc5914.CertPolicyFlags__0.setNamedValues (Py.NamedValues [("inhibitPolicyMapping", 0), ("requireExplicitPolicy", 1), ("inhibitAnyPolicy", 2)])

/-- rfc5914.py:52-53 `class CertPathControls(univ.Sequence)` -/
def CertPathControls__0 : Py.Obj :=
  Py.univ.Sequence

/-- rfc5914.py:55-68 `CertPathControls.componentType = ...` -/
def CertPathControls : Py.Obj :=
  Rfc5914.CertPathControls__0.setComponentType (Py.NamedTypes [
    Py.NamedType "taName" Rfc5914.Name.call,
    Py.OptionalNamedType "certificate" (Rfc5914.Certificate.call.implicitTag (Py.Tag .context false 0)),
    Py.OptionalNamedType "policySet" (Rfc5914.CertificatePolicies.call.implicitTag (Py.Tag .context false 1)),
    Py.OptionalNamedType "policyFlags" (Rfc5914.CertPolicyFlags.call.implicitTag (Py.Tag .context false 2)),
    Py.OptionalNamedType "nameConstr" (Rfc5914.NameConstraints.call.implicitTag (Py.Tag .context false 3)),
    Py.OptionalNamedType "pathLenConstraint" ((Py.univ.Integer.call.addSubtypeSpec (Py.ValueRangeConstraint (.fin 0) Rfc5914.MAX)).implicitTag (Py.Tag .context false 4))])

/-- rfc5914.py:71-72 `class TrustAnchorTitle(char.UTF8String)` -/
def TrustAnchorTitle__0 : Py.Obj :=
  Py.char.UTF8String

/-- rfc5914.py:74 `TrustAnchorTitle.subtypeSpec = ...` -/
def TrustAnchorTitle : Py.Obj :=
  Rfc5914.TrustAnchorTitle__0.setSubtypeSpec (Py.ValueSizeConstraint (.fin 1) (.fin 64))

/-- rfc5914.py:77-78 `class TrustAnchorInfoVersion(univ.Integer)` -/
def TrustAnchorInfoVersion__0 : Py.Obj :=
  Py.univ.Integer

/-- rfc5914.py:80-82 `TrustAnchorInfoVersion.namedValues = ...` -/
def TrustAnchorInfoVersion : Py.Obj :=
  Rfc5914.TrustAnchorInfoVersion__0.setNamedValues (Py.NamedValues [("v1", 1)])

/-- rfc5914.py:85-86 `class TrustAnchorInfo(univ.Sequence)` -/
def TrustAnchorInfo__0 : Py.Obj :=
  Py.univ.Sequence

/-- rfc5914.py:88-98 `TrustAnchorInfo.componentType = ...` -/
def TrustAnchorInfo : Py.Obj :=
  Rfc5914.TrustAnchorInfo__0.setComponentType (Py.NamedTypes [
    Py.DefaultedNamedType "version" (Rfc5914.TrustAnchorInfoVersion.call.callStr "v1"),
    Py.NamedType "pubKey" Rfc5914.SubjectPublicKeyInfo.call,
    Py.NamedType "keyId" Rfc5914.KeyIdentifier.call,
    Py.OptionalNamedType "taTitle" Rfc5914.TrustAnchorTitle.call,
    Py.OptionalNamedType "certPath" Rfc5914.CertPathControls.call,
    Py.OptionalNamedType "exts" (Rfc5914.Extensions.call.explicitTag (Py.Tag .context false 1)),
    Py.OptionalNamedType "taTitleLangTag" (Py.char.UTF8String.call.implicitTag (Py.Tag .context false 2))])

/-- rfc5914.py:101-102 `class TrustAnchorChoice(univ.Choice)` -/
def TrustAnchorChoice__0 : Py.Obj :=
  Py.univ.Choice

/-- rfc5914.py:104-110 `TrustAnchorChoice.componentType = ...` -/
def TrustAnchorChoice : Py.Obj :=
  Rfc5914.TrustAnchorChoice__0.setComponentType (Py.NamedTypes [
    Py.NamedType "certificate" Rfc5914.Certificate.call,
    Py.NamedType "tbsCert" (Rfc5914.TBSCertificate.call.explicitTag (Py.Tag .context false 1)),
    Py.NamedType "taInfo" (Rfc5914.TrustAnchorInfo.call.explicitTag (Py.Tag .context true 2))])

/-- rfc5914.py:113 -/
def id_ct_trustAnchorList : Py.Obj :=
  (Py.univ.ObjectIdentifier.call.callArcs [1, 2, 840, 113549, 1, 9, 16, 1, 34])

/-- rfc5914.py:115-116 `class TrustAnchorList(univ.SequenceOf)` -/
def TrustAnchorList__0 : Py.Obj :=
  Py.univ.SequenceOf

/-- rfc5914.py:118 `TrustAnchorList.componentType = ...` -/
def TrustAnchorList__1 : Py.Obj :=
  Rfc5914.TrustAnchorList__0.setComponentTypeOf Rfc5914.TrustAnchorChoice.call

/-- rfc5914.py:119 `TrustAnchorList.subtypeSpec = ...` -/
def TrustAnchorList : Py.Obj :=
  Rfc5914.TrustAnchorList__1.setSubtypeSpec (Py.ValueSizeConstraint (.fin 1) Rfc5914.MAX)

/-- Modules of this package imported by rfc5914.py, in textual order. -/
def imports : List Py.Ident :=
  [(Py.mod 15 "rfc5280")]

/-- Dictionary operations executed when rfc5914.py is imported, in program order. -/
def effects : List Py.Effect :=
  []

/-- ASN.1 types rfc5914.py binds at module level (final version of each name), plus nested classes. -/
def classes : List (String × Py.Obj) :=
  [("rfc5914.Certificate", Rfc5914.Certificate),
   ("rfc5914.Name", Rfc5914.Name),
   ("rfc5914.Extensions", Rfc5914.Extensions),
   ("rfc5914.SubjectPublicKeyInfo", Rfc5914.SubjectPublicKeyInfo),
   ("rfc5914.TBSCertificate", Rfc5914.TBSCertificate),
   ("rfc5914.CertificatePolicies", Rfc5914.CertificatePolicies),
   ("rfc5914.KeyIdentifier", Rfc5914.KeyIdentifier),
   ("rfc5914.NameConstraints", Rfc5914.NameConstraints),
   ("rfc5914.CertPolicyFlags", Rfc5914.CertPolicyFlags),
   ("rfc5914.CertPathControls", Rfc5914.CertPathControls),
   ("rfc5914.TrustAnchorTitle", Rfc5914.TrustAnchorTitle),
   ("rfc5914.TrustAnchorInfoVersion", Rfc5914.TrustAnchorInfoVersion),
   ("rfc5914.TrustAnchorInfo", Rfc5914.TrustAnchorInfo),
   ("rfc5914.TrustAnchorChoice", Rfc5914.TrustAnchorChoice),
   ("rfc5914.TrustAnchorList", Rfc5914.TrustAnchorList)]

/-- pyasn1 instances rfc5914.py binds at module level. -/
def objects : List (String × Py.Obj) :=
  [("rfc5914.id_ct_trustAnchorList", Rfc5914.id_ct_trustAnchorList)]

/-- pyasn1 instances rfc5914.py fills in by item assignment. -/
def protos : List (String × Py.Proto) :=
  []

/-- Every place of rfc5914.py that instantiates a class of the package: where, the class as it is
at that point, and the class as it is when the import has finished. -/
def snapshots : List Py.Snapshot :=
  [⟨"rfc5914.py:56", Rfc5914.Name, Rfc5914.Name⟩,
   ⟨"rfc5914.py:57", Rfc5914.Certificate, Rfc5914.Certificate⟩,
   ⟨"rfc5914.py:59", Rfc5914.CertificatePolicies, Rfc5914.CertificatePolicies⟩,
   ⟨"rfc5914.py:61", Rfc5914.CertPolicyFlags, Rfc5914.CertPolicyFlags⟩,
   ⟨"rfc5914.py:63", Rfc5914.NameConstraints, Rfc5914.NameConstraints⟩,
   ⟨"rfc5914.py:89", Rfc5914.TrustAnchorInfoVersion, Rfc5914.TrustAnchorInfoVersion⟩,
   ⟨"rfc5914.py:90", Rfc5914.SubjectPublicKeyInfo, Rfc5914.SubjectPublicKeyInfo⟩,
   ⟨"rfc5914.py:91", Rfc5914.KeyIdentifier, Rfc5914.KeyIdentifier⟩,
   ⟨"rfc5914.py:92", Rfc5914.TrustAnchorTitle, Rfc5914.TrustAnchorTitle⟩,
   ⟨"rfc5914.py:93", Rfc5914.CertPathControls, Rfc5914.CertPathControls⟩,
   ⟨"rfc5914.py:94", Rfc5914.Extensions, Rfc5914.Extensions⟩,
   ⟨"rfc5914.py:105", Rfc5914.Certificate, Rfc5914.Certificate⟩,
   ⟨"rfc5914.py:106", Rfc5914.TBSCertificate, Rfc5914.TBSCertificate⟩,
   ⟨"rfc5914.py:108", Rfc5914.TrustAnchorInfo, Rfc5914.TrustAnchorInfo⟩,
   ⟨"rfc5914.py:118", Rfc5914.TrustAnchorChoice, Rfc5914.TrustAnchorChoice⟩]

/-- Functions rfc5914.py defines. -/
def builders : List (String × (List Py.OidArg → Py.Obj)) :=
  []

def asModule : Py.Module :=
  { id := (Py.mod 78 "rfc5914"), imports := imports, effects := effects, classes := classes, objects := objects, protos := protos, snapshots := snapshots, builders := builders }

end Rfc5914
end Verif
