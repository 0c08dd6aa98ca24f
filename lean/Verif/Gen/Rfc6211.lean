import Verif.Py.Obj
import Verif.Gen.Rfc5652

/-! Transcription of /repo/pyasn1_modules/rfc6211.py (generated by tools/gen.py). -/

namespace Verif
namespace Rfc6211

/-- rfc6211.py:25 alias of `rfc5652.DigestAlgorithmIdentifier` -/
def DigestAlgorithmIdentifier : Py.Obj :=
  Rfc5652.DigestAlgorithmIdentifier

/-- rfc6211.py:27 alias of `rfc5652.MessageAuthenticationCodeAlgorithm` -/
def MessageAuthenticationCodeAlgorithm : Py.Obj :=
  Rfc5652.MessageAuthenticationCodeAlgorithm

/-- rfc6211.py:29 alias of `rfc5652.SignatureAlgorithmIdentifier` -/
def SignatureAlgorithmIdentifier : Py.Obj :=
  Rfc5652.SignatureAlgorithmIdentifier

/-- rfc6211.py:34 -/
def id_aa_cmsAlgorithmProtect : Py.Obj :=
  (Py.univ.ObjectIdentifier.call.callArcs [1, 2, 840, 113549, 1, 9, 52])

/-- rfc6211.py:37-38 `class CMSAlgorithmProtection(univ.Sequence)` -/
def CMSAlgorithmProtection__0 : Py.Obj :=
  Py.univ.Sequence

/-- rfc6211.py:40-48 `CMSAlgorithmProtection.componentType = ...` -/
def CMSAlgorithmProtection__1 : Py.Obj :=
  Rfc6211.CMSAlgorithmProtection__0.setComponentType (Py.NamedTypes [
    Py.NamedType "digestAlgorithm" Rfc6211.DigestAlgorithmIdentifier.call,
    Py.OptionalNamedType "signatureAlgorithm" (Rfc6211.SignatureAlgorithmIdentifier.call.implicitTag (Py.Tag .context false 1)),
    Py.OptionalNamedType "macAlgorithm" (Rfc6211.MessageAuthenticationCodeAlgorithm.call.implicitTag (Py.Tag .context false 2))])

/-- rfc6211.py:50-57 `CMSAlgorithmProtection.subtypeSpec = ...` -/
def CMSAlgorithmProtection : Py.Obj :=
  Rfc6211.CMSAlgorithmProtection__1.setSubtypeSpec (Py.ConstraintsUnion [(Py.WithComponentsConstraint [("signatureAlgorithm", true), ("macAlgorithm", false)]), (Py.WithComponentsConstraint [("signatureAlgorithm", false), ("macAlgorithm", true)])])

/-- rfc6211.py:60 -/
def aa_cmsAlgorithmProtection__0 : Py.Proto :=
  { obj := Rfc5652.Attribute.call }

/-- rfc6211.py:61 `aa_cmsAlgorithmProtection['attrType'] = ...` -/
def aa_cmsAlgorithmProtection__1 : Py.Proto :=
  Rfc6211.aa_cmsAlgorithmProtection__0.set "attrType" (.obj Rfc6211.id_aa_cmsAlgorithmProtect)

/-- rfc6211.py:62 `aa_cmsAlgorithmProtection['attrValues'][0] = ...` -/
def aa_cmsAlgorithmProtection : Py.Proto :=
  Rfc6211.aa_cmsAlgorithmProtection__1.set "attrValues" (.elem0 Rfc6211.CMSAlgorithmProtection.call)

/-- rfc6211.py:68-70 -/
def _cmsAttributesMapUpdate : Py.Entries :=
  [(Rfc6211.id_aa_cmsAlgorithmProtect.value, Rfc6211.CMSAlgorithmProtection.call.ty)]

/-- Modules of this package imported by rfc6211.py, in textual order. -/
def imports : List Py.Ident :=
  [(Py.mod 16 "rfc5652")]

/-- Dictionary operations executed when rfc6211.py is imported, in program order. -/
def effects : List Py.Effect :=
  [.create (Py.map 109 "rfc6211._cmsAttributesMapUpdate") Rfc6211._cmsAttributesMapUpdate /- rfc6211.py:68-70 -/,
   .update (Py.map 8 "rfc5652.cmsAttributesMap") Rfc6211._cmsAttributesMapUpdate /- rfc6211.py:72 -/]

/-- ASN.1 types rfc6211.py binds at module level (final version of each name), plus nested classes. -/
def classes : List (String × Py.Obj) :=
  [("rfc6211.DigestAlgorithmIdentifier", Rfc6211.DigestAlgorithmIdentifier),
   ("rfc6211.MessageAuthenticationCodeAlgorithm", Rfc6211.MessageAuthenticationCodeAlgorithm),
   ("rfc6211.SignatureAlgorithmIdentifier", Rfc6211.SignatureAlgorithmIdentifier),
   ("rfc6211.CMSAlgorithmProtection", Rfc6211.CMSAlgorithmProtection)]

/-- pyasn1 instances rfc6211.py binds at module level. -/
def objects : List (String × Py.Obj) :=
  [("rfc6211.id_aa_cmsAlgorithmProtect", Rfc6211.id_aa_cmsAlgorithmProtect)]

/-- pyasn1 instances rfc6211.py fills in by item assignment. -/
def protos : List (String × Py.Proto) :=
  [("rfc6211.aa_cmsAlgorithmProtection", Rfc6211.aa_cmsAlgorithmProtection)]

/-- Every place of rfc6211.py that instantiates a class of the package: where, the class as it is
at that point, and the class as it is when the import has finished. -/
def snapshots : List Py.Snapshot :=
  [⟨"rfc6211.py:41", Rfc6211.DigestAlgorithmIdentifier, Rfc6211.DigestAlgorithmIdentifier⟩,
   ⟨"rfc6211.py:43", Rfc6211.SignatureAlgorithmIdentifier, Rfc6211.SignatureAlgorithmIdentifier⟩,
   ⟨"rfc6211.py:46", Rfc6211.MessageAuthenticationCodeAlgorithm, Rfc6211.MessageAuthenticationCodeAlgorithm⟩,
   ⟨"rfc6211.py:60", Rfc5652.Attribute, Rfc5652.Attribute⟩,
   ⟨"rfc6211.py:62", Rfc6211.CMSAlgorithmProtection, Rfc6211.CMSAlgorithmProtection⟩,
   ⟨"rfc6211.py:69", Rfc6211.CMSAlgorithmProtection, Rfc6211.CMSAlgorithmProtection⟩]

/-- Functions rfc6211.py defines. -/
def builders : List (String × (List Py.OidArg → Py.Obj)) :=
  []

def asModule : Py.Module :=
  { id := (Py.mod 92 "rfc6211"), imports := imports, effects := effects, classes := classes, objects := objects, protos := protos, snapshots := snapshots, builders := builders }

end Rfc6211
end Verif
