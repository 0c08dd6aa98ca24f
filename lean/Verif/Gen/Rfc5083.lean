import Verif.Py.Obj
import Verif.Gen.Rfc5652

/-! Transcription of /repo/pyasn1_modules/rfc5083.py (generated by tools/gen.py). -/

namespace Verif
namespace Rfc5083

/-- rfc5083.py:21 -/
def MAX : Py.Bound :=
  .inf

/-- rfc5083.py:26 -/
def id_ct_authEnvelopedData : Py.Obj :=
  (Py.univ.ObjectIdentifier.call.callArcs [1, 2, 840, 113549, 1, 9, 16, 1, 23])

/-- rfc5083.py:28-29 `class AuthEnvelopedData(univ.Sequence)` -/
def AuthEnvelopedData__0 : Py.Obj :=
  Py.univ.Sequence

/-- rfc5083.py:31-42 `AuthEnvelopedData.componentType = ...` -/
def AuthEnvelopedData : Py.Obj :=
  Rfc5083.AuthEnvelopedData__0.setComponentType (Py.NamedTypes [
    Py.NamedType "version" Rfc5652.CMSVersion.call,
    Py.OptionalNamedType "originatorInfo" (Rfc5652.OriginatorInfo.call.implicitTag (Py.Tag .context true 0)),
    Py.NamedType "recipientInfos" Rfc5652.RecipientInfos.call,
    Py.NamedType "authEncryptedContentInfo" Rfc5652.EncryptedContentInfo.call,
    Py.OptionalNamedType "authAttrs" (Rfc5652.AuthAttributes.call.implicitTag (Py.Tag .context false 1)),
    Py.NamedType "mac" Rfc5652.MessageAuthenticationCode.call,
    Py.OptionalNamedType "unauthAttrs" (Rfc5652.UnauthAttributes.call.implicitTag (Py.Tag .context false 2))])

/-- rfc5083.py:48-50 -/
def _cmsContentTypesMapUpdate : Py.Entries :=
  [(Rfc5083.id_ct_authEnvelopedData.value, Rfc5083.AuthEnvelopedData.call.ty)]

/-- Modules of this package imported by rfc5083.py, in textual order. -/
def imports : List Py.Ident :=
  [(Py.mod 16 "rfc5652")]

/-- Dictionary operations executed when rfc5083.py is imported, in program order. -/
def effects : List Py.Effect :=
  [.create (Py.map 73 "rfc5083._cmsContentTypesMapUpdate") Rfc5083._cmsContentTypesMapUpdate /- rfc5083.py:48-50 -/,
   .update (Py.map 13 "rfc5652.cmsContentTypesMap") Rfc5083._cmsContentTypesMapUpdate /- rfc5083.py:52 -/]

/-- ASN.1 types rfc5083.py binds at module level (final version of each name), plus nested classes. -/
def classes : List (String × Py.Obj) :=
  [("rfc5083.AuthEnvelopedData", Rfc5083.AuthEnvelopedData)]

/-- pyasn1 instances rfc5083.py binds at module level. -/
def objects : List (String × Py.Obj) :=
  [("rfc5083.id_ct_authEnvelopedData", Rfc5083.id_ct_authEnvelopedData)]

/-- pyasn1 instances rfc5083.py fills in by item assignment. -/
def protos : List (String × Py.Proto) :=
  []

/-- Every place of rfc5083.py that instantiates a class of the package: where, the class as it is
at that point, and the class as it is when the import has finished. -/
def snapshots : List Py.Snapshot :=
  [⟨"rfc5083.py:32", Rfc5652.CMSVersion, Rfc5652.CMSVersion⟩,
   ⟨"rfc5083.py:33", Rfc5652.OriginatorInfo, Rfc5652.OriginatorInfo⟩,
   ⟨"rfc5083.py:35", Rfc5652.RecipientInfos, Rfc5652.RecipientInfos⟩,
   ⟨"rfc5083.py:36", Rfc5652.EncryptedContentInfo, Rfc5652.EncryptedContentInfo⟩,
   ⟨"rfc5083.py:37", Rfc5652.AuthAttributes, Rfc5652.AuthAttributes⟩,
   ⟨"rfc5083.py:39", Rfc5652.MessageAuthenticationCode, Rfc5652.MessageAuthenticationCode⟩,
   ⟨"rfc5083.py:40", Rfc5652.UnauthAttributes, Rfc5652.UnauthAttributes⟩,
   ⟨"rfc5083.py:49", Rfc5083.AuthEnvelopedData, Rfc5083.AuthEnvelopedData⟩]

/-- Functions rfc5083.py defines. -/
def builders : List (String × (List Py.OidArg → Py.Obj)) :=
  []

def asModule : Py.Module :=
  { id := (Py.mod 66 "rfc5083"), imports := imports, effects := effects, classes := classes, objects := objects, protos := protos, snapshots := snapshots, builders := builders }

end Rfc5083
end Verif
