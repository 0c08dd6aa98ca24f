import Verif.Py.Obj
import Verif.Gen.Rfc5652

/-! Transcription of /repo/pyasn1_modules/rfc5636.py (generated by tools/gen.py). -/

namespace Verif
namespace Rfc5636

/-- rfc5636.py:22 alias of `rfc5652.ContentInfo` -/
def ContentInfo : Py.Obj :=
  Rfc5652.ContentInfo

/-- rfc5636.py:24 alias of `rfc5652.EncapsulatedContentInfo` -/
def EncapsulatedContentInfo : Py.Obj :=
  Rfc5652.EncapsulatedContentInfo

/-- rfc5636.py:26 alias of `rfc5652.id_data` -/
def id_data : Py.Obj :=
  Rfc5652.id_data

/-- rfc5636.py:31 -/
def id_KISA : Py.Obj :=
  (Py.univ.ObjectIdentifier.call.callArcs [1, 2, 410, 200004])

/-- rfc5636.py:34 -/
def id_npki : Py.Obj :=
  (Rfc5636.id_KISA.addArcs [10])

/-- rfc5636.py:37 -/
def id_attribute : Py.Obj :=
  (Rfc5636.id_npki.addArcs [1])

/-- rfc5636.py:40 -/
def id_kisa_tac : Py.Obj :=
  (Rfc5636.id_attribute.addArcs [1])

/-- rfc5636.py:43 -/
def id_kisa_tac_token : Py.Obj :=
  (Rfc5636.id_kisa_tac.addArcs [1])

/-- rfc5636.py:46 -/
def id_kisa_tac_tokenandblindbash : Py.Obj :=
  (Rfc5636.id_kisa_tac.addArcs [2])

/-- rfc5636.py:49 -/
def id_kisa_tac_tokenandpartially : Py.Obj :=
  (Rfc5636.id_kisa_tac.addArcs [3])

/-- rfc5636.py:54-55 `class UserKey(univ.OctetString)` -/
def UserKey : Py.Obj :=
  Py.univ.OctetString

/-- rfc5636.py:58-59 `class Timeout(useful.GeneralizedTime)` -/
def Timeout : Py.Obj :=
  Py.useful.GeneralizedTime

/-- rfc5636.py:62-63 `class BlinedCertificateHash(univ.OctetString)` -/
def BlinedCertificateHash : Py.Obj :=
  Py.univ.OctetString

/-- rfc5636.py:66-67 `class PartiallySignedCertificateHash(univ.OctetString)` -/
def PartiallySignedCertificateHash : Py.Obj :=
  Py.univ.OctetString

/-- rfc5636.py:70-71 `class Token(ContentInfo)` -/
def Token : Py.Obj :=
  Rfc5636.ContentInfo

/-- rfc5636.py:74-75 `class TokenandBlindHash(ContentInfo)` -/
def TokenandBlindHash : Py.Obj :=
  Rfc5636.ContentInfo

/-- rfc5636.py:78-79 `class TokenandPartiallySignedCertificateHash(ContentInfo)` -/
def TokenandPartiallySignedCertificateHash : Py.Obj :=
  Rfc5636.ContentInfo

/-- rfc5636.py:84-88 `class TACToken(univ.Sequence)` -/
def TACToken : Py.Obj :=
  Py.univ.Sequence.setComponentType (Py.NamedTypes [
    Py.NamedType "userKey" Rfc5636.UserKey.call,
    Py.NamedType "timeout" Rfc5636.Timeout.call])

/-- rfc5636.py:91-95 `class TACTokenandBlindHash(univ.Sequence)` -/
def TACTokenandBlindHash : Py.Obj :=
  Py.univ.Sequence.setComponentType (Py.NamedTypes [
    Py.NamedType "token" Rfc5636.Token.call,
    Py.NamedType "blinded" Rfc5636.BlinedCertificateHash.call])

/-- rfc5636.py:98-102 `class TACTokenandPartiallySignedCertificateHash(univ.Sequence)` -/
def TACTokenandPartiallySignedCertificateHash : Py.Obj :=
  Py.univ.Sequence.setComponentType (Py.NamedTypes [
    Py.NamedType "token" Rfc5636.Token.call,
    Py.NamedType "partially" Rfc5636.PartiallySignedCertificateHash.call])

/-- rfc5636.py:107-111 -/
def _cmsContentTypesMapUpdate : Py.Entries :=
  [(Rfc5636.id_kisa_tac_token.value, Rfc5636.TACToken.call.ty),
    (Rfc5636.id_kisa_tac_tokenandblindbash.value, Rfc5636.TACTokenandBlindHash.call.ty),
    (Rfc5636.id_kisa_tac_tokenandpartially.value, Rfc5636.TACTokenandPartiallySignedCertificateHash.call.ty)]

/-- Modules of this package imported by rfc5636.py, in textual order. -/
def imports : List Py.Ident :=
  [(Py.mod 16 "rfc5652")]

/-- Dictionary operations executed when rfc5636.py is imported, in program order. -/
def effects : List Py.Effect :=
  [.create (Py.map 83 "rfc5636._cmsContentTypesMapUpdate") Rfc5636._cmsContentTypesMapUpdate /- rfc5636.py:107-111 -/,
   .update (Py.map 13 "rfc5652.cmsContentTypesMap") Rfc5636._cmsContentTypesMapUpdate /- rfc5636.py:113 -/]

/-- ASN.1 types rfc5636.py binds at module level (final version of each name), plus nested classes. -/
def classes : List (String × Py.Obj) :=
  [("rfc5636.ContentInfo", Rfc5636.ContentInfo),
   ("rfc5636.EncapsulatedContentInfo", Rfc5636.EncapsulatedContentInfo),
   ("rfc5636.UserKey", Rfc5636.UserKey),
   ("rfc5636.Timeout", Rfc5636.Timeout),
   ("rfc5636.BlinedCertificateHash", Rfc5636.BlinedCertificateHash),
   ("rfc5636.PartiallySignedCertificateHash", Rfc5636.PartiallySignedCertificateHash),
   ("rfc5636.Token", Rfc5636.Token),
   ("rfc5636.TokenandBlindHash", Rfc5636.TokenandBlindHash),
   ("rfc5636.TokenandPartiallySignedCertificateHash", Rfc5636.TokenandPartiallySignedCertificateHash),
   ("rfc5636.TACToken", Rfc5636.TACToken),
   ("rfc5636.TACTokenandBlindHash", Rfc5636.TACTokenandBlindHash),
   ("rfc5636.TACTokenandPartiallySignedCertificateHash", Rfc5636.TACTokenandPartiallySignedCertificateHash)]

/-- pyasn1 instances rfc5636.py binds at module level. -/
def objects : List (String × Py.Obj) :=
  [("rfc5636.id_data", Rfc5636.id_data),
   ("rfc5636.id_KISA", Rfc5636.id_KISA),
   ("rfc5636.id_npki", Rfc5636.id_npki),
   ("rfc5636.id_attribute", Rfc5636.id_attribute),
   ("rfc5636.id_kisa_tac", Rfc5636.id_kisa_tac),
   ("rfc5636.id_kisa_tac_token", Rfc5636.id_kisa_tac_token),
   ("rfc5636.id_kisa_tac_tokenandblindbash", Rfc5636.id_kisa_tac_tokenandblindbash),
   ("rfc5636.id_kisa_tac_tokenandpartially", Rfc5636.id_kisa_tac_tokenandpartially)]

/-- pyasn1 instances rfc5636.py fills in by item assignment. -/
def protos : List (String × Py.Proto) :=
  []

/-- Every place of rfc5636.py that instantiates a class of the package: where, the class as it is
at that point, and the class as it is when the import has finished. -/
def snapshots : List Py.Snapshot :=
  [⟨"rfc5636.py:86", Rfc5636.UserKey, Rfc5636.UserKey⟩,
   ⟨"rfc5636.py:87", Rfc5636.Timeout, Rfc5636.Timeout⟩,
   ⟨"rfc5636.py:93", Rfc5636.Token, Rfc5636.Token⟩,
   ⟨"rfc5636.py:94", Rfc5636.BlinedCertificateHash, Rfc5636.BlinedCertificateHash⟩,
   ⟨"rfc5636.py:100", Rfc5636.Token, Rfc5636.Token⟩,
   ⟨"rfc5636.py:101", Rfc5636.PartiallySignedCertificateHash, Rfc5636.PartiallySignedCertificateHash⟩,
   ⟨"rfc5636.py:108", Rfc5636.TACToken, Rfc5636.TACToken⟩,
   ⟨"rfc5636.py:109", Rfc5636.TACTokenandBlindHash, Rfc5636.TACTokenandBlindHash⟩,
   ⟨"rfc5636.py:110", Rfc5636.TACTokenandPartiallySignedCertificateHash, Rfc5636.TACTokenandPartiallySignedCertificateHash⟩]

/-- Functions rfc5636.py defines. -/
def builders : List (String × (List Py.OidArg → Py.Obj)) :=
  []

def asModule : Py.Module :=
  { id := (Py.mod 72 "rfc5636"), imports := imports, effects := effects, classes := classes, objects := objects, protos := protos, snapshots := snapshots, builders := builders }

end Rfc5636
end Verif
