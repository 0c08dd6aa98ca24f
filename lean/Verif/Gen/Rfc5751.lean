import Verif.Py.Obj
import Verif.Gen.Rfc5652
import Verif.Gen.Rfc8018

/-! Transcription of /repo/pyasn1_modules/rfc5751.py (generated by tools/gen.py). -/

namespace Verif
namespace Rfc5751

/-- rfc5751.py:22-29 `def _OID(*components)` -/
def _OID (components : List Py.OidArg) : Py.Obj :=
  match Py.oidLoop [] components with
  | some output => Py.univ.ObjectIdentifier.call.callArcs output
  | none => .fail "OID without value"

/-- rfc5751.py:34 alias of `rfc5652.IssuerAndSerialNumber` -/
def IssuerAndSerialNumber : Py.Obj :=
  Rfc5652.IssuerAndSerialNumber

/-- rfc5751.py:36 alias of `rfc5652.RecipientKeyIdentifier` -/
def RecipientKeyIdentifier : Py.Obj :=
  Rfc5652.RecipientKeyIdentifier

/-- rfc5751.py:38 alias of `rfc5652.SubjectKeyIdentifier` -/
def SubjectKeyIdentifier : Py.Obj :=
  Rfc5652.SubjectKeyIdentifier

/-- rfc5751.py:40 alias of `rfc8018.rc2CBC` -/
def rc2CBC : Py.Obj :=
  Rfc8018.rc2CBC

/-- rfc5751.py:45 -/
def smimeCapabilities : Py.Obj :=
  (Py.univ.ObjectIdentifier.call.callArcs [1, 2, 840, 113549, 1, 9, 15])

/-- rfc5751.py:48 -/
def smimeCapabilityMap : Py.Entries :=
  []

/-- rfc5751.py:51-52 `class SMIMECapability(univ.Sequence)` -/
def SMIMECapability__0 : Py.Obj :=
  Py.univ.Sequence

/-- rfc5751.py:54-58 `SMIMECapability.componentType = ...` -/
def SMIMECapability : Py.Obj :=
  Rfc5751.SMIMECapability__0.setComponentType (Py.NamedTypes [
    Py.NamedType "capabilityID" Py.univ.ObjectIdentifier.call,
    Py.OptionalNamedType "parameters" Py.univ.Any.call (openType := some (Py.OpenType "capabilityID" (Py.map 14 "rfc5751.smimeCapabilityMap")))])

/-- rfc5751.py:61-62 `class SMIMECapabilities(univ.SequenceOf)` -/
def SMIMECapabilities__0 : Py.Obj :=
  Py.univ.SequenceOf

/-- rfc5751.py:64 `SMIMECapabilities.componentType = ...` -/
def SMIMECapabilities : Py.Obj :=
  Rfc5751.SMIMECapabilities__0.setComponentTypeOf Rfc5751.SMIMECapability.call

/-- rfc5751.py:67-69 `class SMIMECapabilitiesParametersForRC2CBC(univ.Integer)` -/
def SMIMECapabilitiesParametersForRC2CBC : Py.Obj :=
  Py.univ.Integer

/-- rfc5751.py:74 -/
def id_smime : Py.Obj :=
  (Py.univ.ObjectIdentifier.call.callArcs [1, 2, 840, 113549, 1, 9, 16])

/-- rfc5751.py:76 -/
def id_aa : Py.Obj :=
  (Rfc5751._OID [.oid Rfc5751.id_smime, .num 2])

/-- rfc5751.py:78 -/
def id_aa_encrypKeyPref : Py.Obj :=
  (Rfc5751._OID [.oid Rfc5751.id_aa, .num 11])

/-- rfc5751.py:81-82 `class SMIMEEncryptionKeyPreference(univ.Choice)` -/
def SMIMEEncryptionKeyPreference__0 : Py.Obj :=
  Py.univ.Choice

/-- rfc5751.py:84-96 `SMIMEEncryptionKeyPreference.componentType = ...` -/
def SMIMEEncryptionKeyPreference : Py.Obj :=
  Rfc5751.SMIMEEncryptionKeyPreference__0.setComponentType (Py.NamedTypes [
    Py.NamedType "issuerAndSerialNumber" (Rfc5751.IssuerAndSerialNumber.call.implicitTag (Py.Tag .context false 0)),
    Py.NamedType "receipentKeyId" (Rfc5751.RecipientKeyIdentifier.call.implicitTag (Py.Tag .context false 1)),
    Py.NamedType "subjectAltKeyIdentifier" (Rfc5751.SubjectKeyIdentifier.call.implicitTag (Py.Tag .context false 2))])

/-- rfc5751.py:101 -/
def id_cap : Py.Obj :=
  (Rfc5751._OID [.oid Rfc5751.id_smime, .num 11])

/-- rfc5751.py:103 -/
def id_cap_preferBinaryInside : Py.Obj :=
  (Rfc5751._OID [.oid Rfc5751.id_cap, .num 1])

/-- rfc5751.py:108-111 -/
def _cmsAttributesMapUpdate : Py.Entries :=
  [(Rfc5751.smimeCapabilities.value, Rfc5751.SMIMECapabilities.call.ty),
    (Rfc5751.id_aa_encrypKeyPref.value, Rfc5751.SMIMEEncryptionKeyPreference.call.ty)]

/-- rfc5751.py:120-122 -/
def _smimeCapabilityMapUpdate : Py.Entries :=
  [(Rfc5751.rc2CBC.value, Rfc5751.SMIMECapabilitiesParametersForRC2CBC.call.ty)]

/-- Modules of this package imported by rfc5751.py, in textual order. -/
def imports : List Py.Ident :=
  [(Py.mod 16 "rfc5652"), (Py.mod 19 "rfc8018")]

/-- Dictionary operations executed when rfc5751.py is imported, in program order. -/
def effects : List Py.Effect :=
  [.create (Py.map 14 "rfc5751.smimeCapabilityMap") Rfc5751.smimeCapabilityMap /- rfc5751.py:48 -/,
   .create (Py.map 87 "rfc5751._cmsAttributesMapUpdate") Rfc5751._cmsAttributesMapUpdate /- rfc5751.py:108-111 -/,
   .update (Py.map 8 "rfc5652.cmsAttributesMap") Rfc5751._cmsAttributesMapUpdate /- rfc5751.py:113 -/,
   .create (Py.map 88 "rfc5751._smimeCapabilityMapUpdate") Rfc5751._smimeCapabilityMapUpdate /- rfc5751.py:120-122 -/,
   .update (Py.map 14 "rfc5751.smimeCapabilityMap") Rfc5751._smimeCapabilityMapUpdate /- rfc5751.py:124 -/]

/-- ASN.1 types rfc5751.py binds at module level (final version of each name), plus nested classes. -/
def classes : List (String × Py.Obj) :=
  [("rfc5751.IssuerAndSerialNumber", Rfc5751.IssuerAndSerialNumber),
   ("rfc5751.RecipientKeyIdentifier", Rfc5751.RecipientKeyIdentifier),
   ("rfc5751.SubjectKeyIdentifier", Rfc5751.SubjectKeyIdentifier),
   ("rfc5751.SMIMECapability", Rfc5751.SMIMECapability),
   ("rfc5751.SMIMECapabilities", Rfc5751.SMIMECapabilities),
   ("rfc5751.SMIMECapabilitiesParametersForRC2CBC", Rfc5751.SMIMECapabilitiesParametersForRC2CBC),
   ("rfc5751.SMIMEEncryptionKeyPreference", Rfc5751.SMIMEEncryptionKeyPreference)]

/-- pyasn1 instances rfc5751.py binds at module level. -/
def objects : List (String × Py.Obj) :=
  [("rfc5751.rc2CBC", Rfc5751.rc2CBC),
   ("rfc5751.smimeCapabilities", Rfc5751.smimeCapabilities),
   ("rfc5751.id_smime", Rfc5751.id_smime),
   ("rfc5751.id_aa", Rfc5751.id_aa),
   ("rfc5751.id_aa_encrypKeyPref", Rfc5751.id_aa_encrypKeyPref),
   ("rfc5751.id_cap", Rfc5751.id_cap),
   ("rfc5751.id_cap_preferBinaryInside", Rfc5751.id_cap_preferBinaryInside)]

/-- pyasn1 instances rfc5751.py fills in by item assignment. -/
def protos : List (String × Py.Proto) :=
  []

/-- Every place of rfc5751.py that instantiates a class of the package: where, the class as it is
at that point, and the class as it is when the import has finished. -/
def snapshots : List Py.Snapshot :=
  [⟨"rfc5751.py:64", Rfc5751.SMIMECapability, Rfc5751.SMIMECapability⟩,
   ⟨"rfc5751.py:86", Rfc5751.IssuerAndSerialNumber, Rfc5751.IssuerAndSerialNumber⟩,
   ⟨"rfc5751.py:91", Rfc5751.RecipientKeyIdentifier, Rfc5751.RecipientKeyIdentifier⟩,
   ⟨"rfc5751.py:94", Rfc5751.SubjectKeyIdentifier, Rfc5751.SubjectKeyIdentifier⟩,
   ⟨"rfc5751.py:109", Rfc5751.SMIMECapabilities, Rfc5751.SMIMECapabilities⟩,
   ⟨"rfc5751.py:110", Rfc5751.SMIMEEncryptionKeyPreference, Rfc5751.SMIMEEncryptionKeyPreference⟩,
   ⟨"rfc5751.py:121", Rfc5751.SMIMECapabilitiesParametersForRC2CBC, Rfc5751.SMIMECapabilitiesParametersForRC2CBC⟩]

/-- Functions rfc5751.py defines. -/
def builders : List (String × (List Py.OidArg → Py.Obj)) :=
  [("rfc5751._OID", Rfc5751._OID)]

def asModule : Py.Module :=
  { id := (Py.mod 20 "rfc5751"), imports := imports, effects := effects, classes := classes, objects := objects, protos := protos, snapshots := snapshots, builders := builders }

end Rfc5751
end Verif
