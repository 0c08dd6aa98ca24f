import Verif.Py.Obj
import Verif.Gen.Rfc5652
import Verif.Gen.Rfc5083

/-! Transcription of /repo/pyasn1_modules/rfc6032.py (generated by tools/gen.py). -/

namespace Verif
namespace Rfc6032

/-- rfc6032.py:25 -/
def id_aa_KP_contentDecryptKeyID : Py.Obj :=
  (Py.univ.ObjectIdentifier.call.callArcs [2, 16, 840, 1, 101, 2, 1, 5, 66])

/-- rfc6032.py:27-28 `class ContentDecryptKeyID(univ.OctetString)` -/
def ContentDecryptKeyID : Py.Obj :=
  Py.univ.OctetString

/-- rfc6032.py:30 -/
def aa_content_decrypt_key_identifier__0 : Py.Proto :=
  { obj := Rfc5652.Attribute.call }

/-- rfc6032.py:31 `aa_content_decrypt_key_identifier['attrType'] = ...` -/
def aa_content_decrypt_key_identifier__1 : Py.Proto :=
  Rfc6032.aa_content_decrypt_key_identifier__0.set "attrType" (.obj Rfc6032.id_aa_KP_contentDecryptKeyID)

/-- rfc6032.py:32 `aa_content_decrypt_key_identifier['attrValues'][0] = ...` -/
def aa_content_decrypt_key_identifier : Py.Proto :=
  Rfc6032.aa_content_decrypt_key_identifier__1.set "attrValues" (.elem0 Rfc6032.ContentDecryptKeyID.call)

/-- rfc6032.py:37 -/
def id_ct_KP_encryptedKeyPkg : Py.Obj :=
  (Py.univ.ObjectIdentifier.call.callArcs [2, 16, 840, 1, 101, 2, 1, 2, 78, 2])

/-- rfc6032.py:39-40 `class EncryptedKeyPackage(univ.Choice)` -/
def EncryptedKeyPackage__0 : Py.Obj :=
  Py.univ.Choice

/-- rfc6032.py:42-48 `EncryptedKeyPackage.componentType = ...` -/
def EncryptedKeyPackage : Py.Obj :=
  Rfc6032.EncryptedKeyPackage__0.setComponentType (Py.NamedTypes [
    Py.NamedType "encrypted" Rfc5652.EncryptedData.call,
    Py.NamedType "enveloped" (Rfc5652.EnvelopedData.call.implicitTag (Py.Tag .context false 0)),
    Py.NamedType "authEnveloped" (Rfc5083.AuthEnvelopedData.call.implicitTag (Py.Tag .context false 1))])

/-- rfc6032.py:54-56 -/
def _cmsAttributesMapUpdate : Py.Entries :=
  [(Rfc6032.id_aa_KP_contentDecryptKeyID.value, Rfc6032.ContentDecryptKeyID.call.ty)]

/-- rfc6032.py:64-66 -/
def _cmsContentTypesMapUpdate : Py.Entries :=
  [(Rfc6032.id_ct_KP_encryptedKeyPkg.value, Rfc6032.EncryptedKeyPackage.call.ty)]

/-- Modules of this package imported by rfc6032.py, in textual order. -/
def imports : List Py.Ident :=
  [(Py.mod 16 "rfc5652"), (Py.mod 66 "rfc5083")]

/-- Dictionary operations executed when rfc6032.py is imported, in program order. -/
def effects : List Py.Effect :=
  [.create (Py.map 105 "rfc6032._cmsAttributesMapUpdate") Rfc6032._cmsAttributesMapUpdate /- rfc6032.py:54-56 -/,
   .update (Py.map 8 "rfc5652.cmsAttributesMap") Rfc6032._cmsAttributesMapUpdate /- rfc6032.py:58 -/,
   .create (Py.map 106 "rfc6032._cmsContentTypesMapUpdate") Rfc6032._cmsContentTypesMapUpdate /- rfc6032.py:64-66 -/,
   .update (Py.map 13 "rfc5652.cmsContentTypesMap") Rfc6032._cmsContentTypesMapUpdate /- rfc6032.py:68 -/]

/-- ASN.1 types rfc6032.py binds at module level (final version of each name), plus nested classes. -/
def classes : List (String × Py.Obj) :=
  [("rfc6032.ContentDecryptKeyID", Rfc6032.ContentDecryptKeyID),
   ("rfc6032.EncryptedKeyPackage", Rfc6032.EncryptedKeyPackage)]

/-- pyasn1 instances rfc6032.py binds at module level. -/
def objects : List (String × Py.Obj) :=
  [("rfc6032.id_aa_KP_contentDecryptKeyID", Rfc6032.id_aa_KP_contentDecryptKeyID),
   ("rfc6032.id_ct_KP_encryptedKeyPkg", Rfc6032.id_ct_KP_encryptedKeyPkg)]

/-- pyasn1 instances rfc6032.py fills in by item assignment. -/
def protos : List (String × Py.Proto) :=
  [("rfc6032.aa_content_decrypt_key_identifier", Rfc6032.aa_content_decrypt_key_identifier)]

/-- Every place of rfc6032.py that instantiates a class of the package: where, the class as it is
at that point, and the class as it is when the import has finished. -/
def snapshots : List Py.Snapshot :=
  [⟨"rfc6032.py:30", Rfc5652.Attribute, Rfc5652.Attribute⟩,
   ⟨"rfc6032.py:32", Rfc6032.ContentDecryptKeyID, Rfc6032.ContentDecryptKeyID⟩,
   ⟨"rfc6032.py:43", Rfc5652.EncryptedData, Rfc5652.EncryptedData⟩,
   ⟨"rfc6032.py:44", Rfc5652.EnvelopedData, Rfc5652.EnvelopedData⟩,
   ⟨"rfc6032.py:46", Rfc5083.AuthEnvelopedData, Rfc5083.AuthEnvelopedData⟩,
   ⟨"rfc6032.py:55", Rfc6032.ContentDecryptKeyID, Rfc6032.ContentDecryptKeyID⟩,
   ⟨"rfc6032.py:65", Rfc6032.EncryptedKeyPackage, Rfc6032.EncryptedKeyPackage⟩]

/-- Functions rfc6032.py defines. -/
def builders : List (String × (List Py.OidArg → Py.Obj)) :=
  []

def asModule : Py.Module :=
  { id := (Py.mod 88 "rfc6032"), imports := imports, effects := effects, classes := classes, objects := objects, protos := protos, snapshots := snapshots, builders := builders }

end Rfc6032
end Verif
