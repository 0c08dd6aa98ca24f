import Verif.Py.Obj
import Verif.Gen.Rfc3565
import Verif.Gen.Rfc5280
import Verif.Gen.Rfc5652
import Verif.Gen.Rfc5751
import Verif.Gen.Rfc5755

/-! Transcription of /repo/pyasn1_modules/rfc5275.py (generated by tools/gen.py). -/

namespace Verif
namespace Rfc5275

/-- rfc5275.py:29 -/
def MAX : Py.Bound :=
  .inf

/-- rfc5275.py:34 -/
def glaQueryRRMap : Py.Entries :=
  []

/-- rfc5275.py:39 alias of `rfc3565.id_aes128_wrap` -/
def id_aes128_wrap : Py.Obj :=
  Rfc3565.id_aes128_wrap

/-- rfc5275.py:44 alias of `rfc5280.AlgorithmIdentifier` -/
def AlgorithmIdentifier : Py.Obj :=
  Rfc5280.AlgorithmIdentifier

/-- rfc5275.py:46 alias of `rfc5280.Certificate` -/
def Certificate : Py.Obj :=
  Rfc5280.Certificate

/-- rfc5275.py:48 alias of `rfc5280.GeneralName` -/
def GeneralName : Py.Obj :=
  Rfc5280.GeneralName

/-- rfc5275.py:53 alias of `rfc5652.CertificateSet` -/
def CertificateSet : Py.Obj :=
  Rfc5652.CertificateSet

/-- rfc5275.py:55 alias of `rfc5652.KEKIdentifier` -/
def KEKIdentifier : Py.Obj :=
  Rfc5652.KEKIdentifier

/-- rfc5275.py:57 alias of `rfc5652.RecipientInfos` -/
def RecipientInfos : Py.Obj :=
  Rfc5652.RecipientInfos

/-- rfc5275.py:62 alias of `rfc5751.SMIMECapability` -/
def SMIMECapability : Py.Obj :=
  Rfc5751.SMIMECapability

/-- rfc5275.py:67 alias of `rfc5755.AttributeCertificate` -/
def AttributeCertificate : Py.Obj :=
  Rfc5755.AttributeCertificate

/-- rfc5275.py:72 -/
def id_skd : Py.Obj :=
  (Py.univ.ObjectIdentifier.call.callArcs [1, 2, 840, 113549, 1, 9, 16, 8])

/-- rfc5275.py:77 -/
def id_skd_glUseKEK : Py.Obj :=
  (Rfc5275.id_skd.addArcs [1])

/-- rfc5275.py:80-92 `class Certificates(univ.Sequence)` -/
def Certificates : Py.Obj :=
  Py.univ.Sequence.setComponentType (Py.NamedTypes [
    Py.OptionalNamedType "pKC" (Rfc5275.Certificate.call.implicitTag (Py.Tag .context false 0)),
    Py.OptionalNamedType "aC" (((Py.univ.SequenceOf.call.setComponentTypeOf Rfc5275.AttributeCertificate.call).addSubtypeSpec (Py.ValueSizeConstraint (.fin 1) Rfc5275.MAX)).implicitTag (Py.Tag .context false 1)),
    Py.OptionalNamedType "certPath" (Rfc5275.CertificateSet.call.implicitTag (Py.Tag .context false 2))])

/-- rfc5275.py:95-99 `class GLInfo(univ.Sequence)` -/
def GLInfo : Py.Obj :=
  Py.univ.Sequence.setComponentType (Py.NamedTypes [
    Py.NamedType "glName" Rfc5275.GeneralName.call,
    Py.NamedType "glAddress" Rfc5275.GeneralName.call])

/-- rfc5275.py:102-107 `class GLOwnerInfo(univ.Sequence)` -/
def GLOwnerInfo : Py.Obj :=
  Py.univ.Sequence.setComponentType (Py.NamedTypes [
    Py.NamedType "glOwnerName" Rfc5275.GeneralName.call,
    Py.NamedType "glOwnerAddress" Rfc5275.GeneralName.call,
    Py.OptionalNamedType "certificates" Rfc5275.Certificates.call])

/-- rfc5275.py:110-115 `class GLAdministration(univ.Integer)` -/
def GLAdministration : Py.Obj :=
  Py.univ.Integer.setNamedValues (Py.NamedValues [("unmanaged", 0), ("managed", 1), ("closed", 2)])

/-- rfc5275.py:118-119 -/
def requested_algorithm__0 : Py.Proto :=
  { obj := (Rfc5275.SMIMECapability.call.implicitTag (Py.Tag .context false 4)) }

/-- rfc5275.py:120 `requested_algorithm['capabilityID'] = ...` -/
def requested_algorithm : Py.Proto :=
  Rfc5275.requested_algorithm__0.set "capabilityID" (.obj Rfc5275.id_aes128_wrap)

/-- rfc5275.py:123-138 `class GLKeyAttributes(univ.Sequence)` -/
def GLKeyAttributes : Py.Obj :=
  Py.univ.Sequence.setComponentType (Py.NamedTypes [
    Py.DefaultedNamedType "rekeyControlledByGLO" ((Py.univ.Boolean.call.implicitTag (Py.Tag .context false 0)).callInt 0),
    Py.DefaultedNamedType "recipientsNotMutuallyAware" ((Py.univ.Boolean.call.implicitTag (Py.Tag .context false 1)).callInt 1),
    Py.DefaultedNamedType "duration" ((Py.univ.Integer.call.implicitTag (Py.Tag .context false 2)).callInt 0),
    Py.DefaultedNamedType "generationCounter" ((Py.univ.Integer.call.implicitTag (Py.Tag .context false 3)).callInt 2),
    Py.DefaultedNamedType "requestedAlgorithm" Rfc5275.requested_algorithm.toObj])

/-- rfc5275.py:141-150 `class GLUseKEK(univ.Sequence)` -/
def GLUseKEK : Py.Obj :=
  Py.univ.Sequence.setComponentType (Py.NamedTypes [
    Py.NamedType "glInfo" Rfc5275.GLInfo.call,
    Py.NamedType "glOwnerInfo" ((Py.univ.SequenceOf.call.setComponentTypeOf Rfc5275.GLOwnerInfo.call).addSubtypeSpec (Py.ValueSizeConstraint (.fin 1) Rfc5275.MAX)),
    Py.DefaultedNamedType "glAdministration" (Rfc5275.GLAdministration.call.callInt 1),
    Py.OptionalNamedType "glKeyAttributes" Rfc5275.GLKeyAttributes.call])

/-- rfc5275.py:155 -/
def id_skd_glDelete : Py.Obj :=
  (Rfc5275.id_skd.addArcs [2])

/-- rfc5275.py:158-159 `class DeleteGL(GeneralName)` -/
def DeleteGL : Py.Obj :=
  Rfc5275.GeneralName

/-- rfc5275.py:164 -/
def id_skd_glAddMember : Py.Obj :=
  (Rfc5275.id_skd.addArcs [3])

/-- rfc5275.py:167-172 `class GLMember(univ.Sequence)` -/
def GLMember : Py.Obj :=
  Py.univ.Sequence.setComponentType (Py.NamedTypes [
    Py.NamedType "glMemberName" Rfc5275.GeneralName.call,
    Py.OptionalNamedType "glMemberAddress" Rfc5275.GeneralName.call,
    Py.OptionalNamedType "certificates" Rfc5275.Certificates.call])

/-- rfc5275.py:175-179 `class GLAddMember(univ.Sequence)` -/
def GLAddMember : Py.Obj :=
  Py.univ.Sequence.setComponentType (Py.NamedTypes [
    Py.NamedType "glName" Rfc5275.GeneralName.call,
    Py.NamedType "glMember" Rfc5275.GLMember.call])

/-- rfc5275.py:184 -/
def id_skd_glDeleteMember : Py.Obj :=
  (Rfc5275.id_skd.addArcs [4])

/-- rfc5275.py:187-191 `class GLDeleteMember(univ.Sequence)` -/
def GLDeleteMember : Py.Obj :=
  Py.univ.Sequence.setComponentType (Py.NamedTypes [
    Py.NamedType "glName" Rfc5275.GeneralName.call,
    Py.NamedType "glMemberToDelete" Rfc5275.GeneralName.call])

/-- rfc5275.py:196 -/
def id_skd_glRekey : Py.Obj :=
  (Rfc5275.id_skd.addArcs [5])

/-- rfc5275.py:199-216 `class GLNewKeyAttributes(univ.Sequence)` -/
def GLNewKeyAttributes : Py.Obj :=
  Py.univ.Sequence.setComponentType (Py.NamedTypes [
    Py.OptionalNamedType "rekeyControlledByGLO" (Py.univ.Boolean.call.implicitTag (Py.Tag .context false 0)),
    Py.OptionalNamedType "recipientsNotMutuallyAware" (Py.univ.Boolean.call.implicitTag (Py.Tag .context false 1)),
    Py.OptionalNamedType "duration" (Py.univ.Integer.call.implicitTag (Py.Tag .context false 2)),
    Py.OptionalNamedType "generationCounter" (Py.univ.Integer.call.implicitTag (Py.Tag .context false 3)),
    Py.OptionalNamedType "requestedAlgorithm" (Rfc5275.AlgorithmIdentifier.call.implicitTag (Py.Tag .context false 4))])

/-- rfc5275.py:219-225 `class GLRekey(univ.Sequence)` -/
def GLRekey : Py.Obj :=
  Py.univ.Sequence.setComponentType (Py.NamedTypes [
    Py.NamedType "glName" Rfc5275.GeneralName.call,
    Py.OptionalNamedType "glAdministration" Rfc5275.GLAdministration.call,
    Py.OptionalNamedType "glNewKeyAttributes" Rfc5275.GLNewKeyAttributes.call,
    Py.OptionalNamedType "glRekeyAllGLKeys" Py.univ.Boolean.call])

/-- rfc5275.py:230 -/
def id_skd_glAddOwner : Py.Obj :=
  (Rfc5275.id_skd.addArcs [6])

/-- rfc5275.py:232 -/
def id_skd_glRemoveOwner : Py.Obj :=
  (Rfc5275.id_skd.addArcs [7])

/-- rfc5275.py:235-239 `class GLOwnerAdministration(univ.Sequence)` -/
def GLOwnerAdministration : Py.Obj :=
  Py.univ.Sequence.setComponentType (Py.NamedTypes [
    Py.NamedType "glName" Rfc5275.GeneralName.call,
    Py.NamedType "glOwnerInfo" Rfc5275.GLOwnerInfo.call])

/-- rfc5275.py:244 -/
def id_skd_glKeyCompromise : Py.Obj :=
  (Rfc5275.id_skd.addArcs [8])

/-- rfc5275.py:247-248 `class GLKCompromise(GeneralName)` -/
def GLKCompromise : Py.Obj :=
  Rfc5275.GeneralName

/-- rfc5275.py:253 -/
def id_skd_glkRefresh : Py.Obj :=
  (Rfc5275.id_skd.addArcs [9])

/-- rfc5275.py:256-260 `class Date(univ.Sequence)` -/
def Date : Py.Obj :=
  Py.univ.Sequence.setComponentType (Py.NamedTypes [
    Py.NamedType "start" Py.useful.GeneralizedTime.call,
    Py.OptionalNamedType "end" Py.useful.GeneralizedTime.call])

/-- rfc5275.py:263-269 `class GLKRefresh(univ.Sequence)` -/
def GLKRefresh : Py.Obj :=
  Py.univ.Sequence.setComponentType (Py.NamedTypes [
    Py.NamedType "glName" Rfc5275.GeneralName.call,
    Py.NamedType "dates" ((Py.univ.SequenceOf.call.setComponentTypeOf Rfc5275.Date.call).addSubtypeSpec (Py.ValueSizeConstraint (.fin 1) Rfc5275.MAX))])

/-- rfc5275.py:274 -/
def id_skd_glaQueryRequest : Py.Obj :=
  (Rfc5275.id_skd.addArcs [11])

/-- rfc5275.py:277-282 `class GLAQueryRequest(univ.Sequence)` -/
def GLAQueryRequest : Py.Obj :=
  Py.univ.Sequence.setComponentType (Py.NamedTypes [
    Py.NamedType "glaRequestType" Py.univ.ObjectIdentifier.call,
    Py.NamedType "glaRequestValue" Py.univ.Any.call (openType := some (Py.OpenType "glaRequestType" (Py.map 25 "rfc5275.glaQueryRRMap")))])

/-- rfc5275.py:287 -/
def id_skd_glaQueryResponse : Py.Obj :=
  (Rfc5275.id_skd.addArcs [12])

/-- rfc5275.py:290-295 `class GLAQueryResponse(univ.Sequence)` -/
def GLAQueryResponse : Py.Obj :=
  Py.univ.Sequence.setComponentType (Py.NamedTypes [
    Py.NamedType "glaResponseType" Py.univ.ObjectIdentifier.call,
    Py.NamedType "glaResponseValue" Py.univ.Any.call (openType := some (Py.OpenType "glaResponseType" (Py.map 25 "rfc5275.glaQueryRRMap")))])

/-- rfc5275.py:300 -/
def id_cmc_glaRR : Py.Obj :=
  (Py.univ.ObjectIdentifier.call.callArcs [1, 3, 6, 1, 5, 5, 7, 7, 99])

/-- rfc5275.py:305 -/
def id_cmc_gla_skdAlgRequest : Py.Obj :=
  (Rfc5275.id_cmc_glaRR.addArcs [1])

/-- rfc5275.py:308-309 `class SKDAlgRequest(univ.Null)` -/
def SKDAlgRequest : Py.Obj :=
  Py.univ.Null

/-- rfc5275.py:314 -/
def id_cmc_gla_skdAlgResponse : Py.Obj :=
  (Rfc5275.id_cmc_glaRR.addArcs [2])

/-- rfc5275.py:316 alias of `rfc5751.SMIMECapabilities` -/
def SMIMECapabilities : Py.Obj :=
  Rfc5751.SMIMECapabilities

/-- rfc5275.py:322 -/
def id_skd_glProvideCert : Py.Obj :=
  (Rfc5275.id_skd.addArcs [13])

/-- rfc5275.py:324 -/
def id_skd_glManageCert : Py.Obj :=
  (Rfc5275.id_skd.addArcs [14])

/-- rfc5275.py:327-331 `class GLManageCert(univ.Sequence)` -/
def GLManageCert : Py.Obj :=
  Py.univ.Sequence.setComponentType (Py.NamedTypes [
    Py.NamedType "glName" Rfc5275.GeneralName.call,
    Py.NamedType "glMember" Rfc5275.GLMember.call])

/-- rfc5275.py:336 -/
def id_skd_glKey : Py.Obj :=
  (Rfc5275.id_skd.addArcs [15])

/-- rfc5275.py:339-347 `class GLKey(univ.Sequence)` -/
def GLKey : Py.Obj :=
  Py.univ.Sequence.setComponentType (Py.NamedTypes [
    Py.NamedType "glName" Rfc5275.GeneralName.call,
    Py.NamedType "glIdentifier" Rfc5275.KEKIdentifier.call,
    Py.NamedType "glkWrapped" Rfc5275.RecipientInfos.call,
    Py.NamedType "glkAlgorithm" Rfc5275.AlgorithmIdentifier.call,
    Py.NamedType "glkNotBefore" Py.useful.GeneralizedTime.call,
    Py.NamedType "glkNotAfter" Py.useful.GeneralizedTime.call])

/-- rfc5275.py:352 -/
def id_cet_skdFailInfo : Py.Obj :=
  (Py.univ.ObjectIdentifier.call.callArcs [1, 3, 6, 1, 5, 5, 7, 15, 1])

/-- rfc5275.py:355-371 `class SKDFailInfo(univ.Integer)` -/
def SKDFailInfo : Py.Obj :=
  Py.univ.Integer.setNamedValues (Py.NamedValues [("unspecified", 0), ("closedGL", 1), ("unsupportedDuration", 2), ("noGLACertificate", 3), ("invalidCert", 4), ("unsupportedAlgorithm", 5), ("noGLONameMatch", 6), ("invalidGLName", 7), ("nameAlreadyInUse", 8), ("noSpam", 9), ("alreadyAMember", 11), ("notAMember", 12), ("alreadyAnOwner", 13), ("notAnOwner", 14)])

/-- rfc5275.py:376-379 -/
def _glaQueryRRMapUpdate : Py.Entries :=
  [(Rfc5275.id_cmc_gla_skdAlgRequest.value, (Py.univ.Null.call.callStr "").ty),
    (Rfc5275.id_cmc_gla_skdAlgResponse.value, Rfc5275.SMIMECapabilities.call.ty)]

/-- rfc5275.py:387-402 -/
def _cmcControlAttributesMapUpdate : Py.Entries :=
  [(Rfc5275.id_skd_glUseKEK.value, Rfc5275.GLUseKEK.call.ty),
    (Rfc5275.id_skd_glDelete.value, Rfc5275.DeleteGL.call.ty),
    (Rfc5275.id_skd_glAddMember.value, Rfc5275.GLAddMember.call.ty),
    (Rfc5275.id_skd_glDeleteMember.value, Rfc5275.GLDeleteMember.call.ty),
    (Rfc5275.id_skd_glRekey.value, Rfc5275.GLRekey.call.ty),
    (Rfc5275.id_skd_glAddOwner.value, Rfc5275.GLOwnerAdministration.call.ty),
    (Rfc5275.id_skd_glRemoveOwner.value, Rfc5275.GLOwnerAdministration.call.ty),
    (Rfc5275.id_skd_glKeyCompromise.value, Rfc5275.GLKCompromise.call.ty),
    (Rfc5275.id_skd_glkRefresh.value, Rfc5275.GLKRefresh.call.ty),
    (Rfc5275.id_skd_glaQueryRequest.value, Rfc5275.GLAQueryRequest.call.ty),
    (Rfc5275.id_skd_glaQueryResponse.value, Rfc5275.GLAQueryResponse.call.ty),
    (Rfc5275.id_skd_glProvideCert.value, Rfc5275.GLManageCert.call.ty),
    (Rfc5275.id_skd_glManageCert.value, Rfc5275.GLManageCert.call.ty),
    (Rfc5275.id_skd_glKey.value, Rfc5275.GLKey.call.ty)]

/-- Modules of this package imported by rfc5275.py, in textual order. -/
def imports : List Py.Ident :=
  [(Py.mod 18 "rfc3565"), (Py.mod 15 "rfc5280"), (Py.mod 16 "rfc5652"), (Py.mod 20 "rfc5751"), (Py.mod 27 "rfc5755")]

/-- Dictionary operations executed when rfc5275.py is imported, in program order. -/
def effects : List Py.Effect :=
  [.create (Py.map 25 "rfc5275.glaQueryRRMap") Rfc5275.glaQueryRRMap /- rfc5275.py:34 -/,
   .create (Py.map 77 "rfc5275._glaQueryRRMapUpdate") Rfc5275._glaQueryRRMapUpdate /- rfc5275.py:376-379 -/,
   .update (Py.map 25 "rfc5275.glaQueryRRMap") Rfc5275._glaQueryRRMapUpdate /- rfc5275.py:381 -/,
   .create (Py.map 78 "rfc5275._cmcControlAttributesMapUpdate") Rfc5275._cmcControlAttributesMapUpdate /- rfc5275.py:387-402 -/,
   .update (Py.map 8 "rfc5652.cmsAttributesMap") Rfc5275._cmcControlAttributesMapUpdate /- rfc5275.py:404 -/]

/-- ASN.1 types rfc5275.py binds at module level (final version of each name), plus nested classes. -/
def classes : List (String × Py.Obj) :=
  [("rfc5275.AlgorithmIdentifier", Rfc5275.AlgorithmIdentifier),
   ("rfc5275.Certificate", Rfc5275.Certificate),
   ("rfc5275.GeneralName", Rfc5275.GeneralName),
   ("rfc5275.CertificateSet", Rfc5275.CertificateSet),
   ("rfc5275.KEKIdentifier", Rfc5275.KEKIdentifier),
   ("rfc5275.RecipientInfos", Rfc5275.RecipientInfos),
   ("rfc5275.SMIMECapability", Rfc5275.SMIMECapability),
   ("rfc5275.AttributeCertificate", Rfc5275.AttributeCertificate),
   ("rfc5275.Certificates", Rfc5275.Certificates),
   ("rfc5275.GLInfo", Rfc5275.GLInfo),
   ("rfc5275.GLOwnerInfo", Rfc5275.GLOwnerInfo),
   ("rfc5275.GLAdministration", Rfc5275.GLAdministration),
   ("rfc5275.GLKeyAttributes", Rfc5275.GLKeyAttributes),
   ("rfc5275.GLUseKEK", Rfc5275.GLUseKEK),
   ("rfc5275.DeleteGL", Rfc5275.DeleteGL),
   ("rfc5275.GLMember", Rfc5275.GLMember),
   ("rfc5275.GLAddMember", Rfc5275.GLAddMember),
   ("rfc5275.GLDeleteMember", Rfc5275.GLDeleteMember),
   ("rfc5275.GLNewKeyAttributes", Rfc5275.GLNewKeyAttributes),
   ("rfc5275.GLRekey", Rfc5275.GLRekey),
   ("rfc5275.GLOwnerAdministration", Rfc5275.GLOwnerAdministration),
   ("rfc5275.GLKCompromise", Rfc5275.GLKCompromise),
   ("rfc5275.Date", Rfc5275.Date),
   ("rfc5275.GLKRefresh", Rfc5275.GLKRefresh),
   ("rfc5275.GLAQueryRequest", Rfc5275.GLAQueryRequest),
   ("rfc5275.GLAQueryResponse", Rfc5275.GLAQueryResponse),
   ("rfc5275.SKDAlgRequest", Rfc5275.SKDAlgRequest),
   ("rfc5275.SMIMECapabilities", Rfc5275.SMIMECapabilities),
   ("rfc5275.GLManageCert", Rfc5275.GLManageCert),
   ("rfc5275.GLKey", Rfc5275.GLKey),
   ("rfc5275.SKDFailInfo", Rfc5275.SKDFailInfo)]

/-- pyasn1 instances rfc5275.py binds at module level. -/
def objects : List (String × Py.Obj) :=
  [("rfc5275.id_aes128_wrap", Rfc5275.id_aes128_wrap),
   ("rfc5275.id_skd", Rfc5275.id_skd),
   ("rfc5275.id_skd_glUseKEK", Rfc5275.id_skd_glUseKEK),
   ("rfc5275.id_skd_glDelete", Rfc5275.id_skd_glDelete),
   ("rfc5275.id_skd_glAddMember", Rfc5275.id_skd_glAddMember),
   ("rfc5275.id_skd_glDeleteMember", Rfc5275.id_skd_glDeleteMember),
   ("rfc5275.id_skd_glRekey", Rfc5275.id_skd_glRekey),
   ("rfc5275.id_skd_glAddOwner", Rfc5275.id_skd_glAddOwner),
   ("rfc5275.id_skd_glRemoveOwner", Rfc5275.id_skd_glRemoveOwner),
   ("rfc5275.id_skd_glKeyCompromise", Rfc5275.id_skd_glKeyCompromise),
   ("rfc5275.id_skd_glkRefresh", Rfc5275.id_skd_glkRefresh),
   ("rfc5275.id_skd_glaQueryRequest", Rfc5275.id_skd_glaQueryRequest),
   ("rfc5275.id_skd_glaQueryResponse", Rfc5275.id_skd_glaQueryResponse),
   ("rfc5275.id_cmc_glaRR", Rfc5275.id_cmc_glaRR),
   ("rfc5275.id_cmc_gla_skdAlgRequest", Rfc5275.id_cmc_gla_skdAlgRequest),
   ("rfc5275.id_cmc_gla_skdAlgResponse", Rfc5275.id_cmc_gla_skdAlgResponse),
   ("rfc5275.id_skd_glProvideCert", Rfc5275.id_skd_glProvideCert),
   ("rfc5275.id_skd_glManageCert", Rfc5275.id_skd_glManageCert),
   ("rfc5275.id_skd_glKey", Rfc5275.id_skd_glKey),
   ("rfc5275.id_cet_skdFailInfo", Rfc5275.id_cet_skdFailInfo)]

/-- pyasn1 instances rfc5275.py fills in by item assignment. -/
def protos : List (String × Py.Proto) :=
  [("rfc5275.requested_algorithm", Rfc5275.requested_algorithm)]

/-- Every place of rfc5275.py that instantiates a class of the package: where, the class as it is
at that point, and the class as it is when the import has finished. -/
def snapshots : List Py.Snapshot :=
  [⟨"rfc5275.py:83", Rfc5275.Certificate, Rfc5275.Certificate⟩,
   ⟨"rfc5275.py:86", Rfc5275.AttributeCertificate, Rfc5275.AttributeCertificate⟩,
   ⟨"rfc5275.py:90", Rfc5275.CertificateSet, Rfc5275.CertificateSet⟩,
   ⟨"rfc5275.py:97", Rfc5275.GeneralName, Rfc5275.GeneralName⟩,
   ⟨"rfc5275.py:98", Rfc5275.GeneralName, Rfc5275.GeneralName⟩,
   ⟨"rfc5275.py:104", Rfc5275.GeneralName, Rfc5275.GeneralName⟩,
   ⟨"rfc5275.py:105", Rfc5275.GeneralName, Rfc5275.GeneralName⟩,
   ⟨"rfc5275.py:106", Rfc5275.Certificates, Rfc5275.Certificates⟩,
   ⟨"rfc5275.py:118", Rfc5275.SMIMECapability, Rfc5275.SMIMECapability⟩,
   ⟨"rfc5275.py:143", Rfc5275.GLInfo, Rfc5275.GLInfo⟩,
   ⟨"rfc5275.py:145", Rfc5275.GLOwnerInfo, Rfc5275.GLOwnerInfo⟩,
   ⟨"rfc5275.py:148", Rfc5275.GLAdministration, Rfc5275.GLAdministration⟩,
   ⟨"rfc5275.py:149", Rfc5275.GLKeyAttributes, Rfc5275.GLKeyAttributes⟩,
   ⟨"rfc5275.py:169", Rfc5275.GeneralName, Rfc5275.GeneralName⟩,
   ⟨"rfc5275.py:170", Rfc5275.GeneralName, Rfc5275.GeneralName⟩,
   ⟨"rfc5275.py:171", Rfc5275.Certificates, Rfc5275.Certificates⟩,
   ⟨"rfc5275.py:177", Rfc5275.GeneralName, Rfc5275.GeneralName⟩,
   ⟨"rfc5275.py:178", Rfc5275.GLMember, Rfc5275.GLMember⟩,
   ⟨"rfc5275.py:189", Rfc5275.GeneralName, Rfc5275.GeneralName⟩,
   ⟨"rfc5275.py:190", Rfc5275.GeneralName, Rfc5275.GeneralName⟩,
   ⟨"rfc5275.py:214", Rfc5275.AlgorithmIdentifier, Rfc5275.AlgorithmIdentifier⟩,
   ⟨"rfc5275.py:221", Rfc5275.GeneralName, Rfc5275.GeneralName⟩,
   ⟨"rfc5275.py:222", Rfc5275.GLAdministration, Rfc5275.GLAdministration⟩,
   ⟨"rfc5275.py:223", Rfc5275.GLNewKeyAttributes, Rfc5275.GLNewKeyAttributes⟩,
   ⟨"rfc5275.py:237", Rfc5275.GeneralName, Rfc5275.GeneralName⟩,
   ⟨"rfc5275.py:238", Rfc5275.GLOwnerInfo, Rfc5275.GLOwnerInfo⟩,
   ⟨"rfc5275.py:265", Rfc5275.GeneralName, Rfc5275.GeneralName⟩,
   ⟨"rfc5275.py:267", Rfc5275.Date, Rfc5275.Date⟩,
   ⟨"rfc5275.py:329", Rfc5275.GeneralName, Rfc5275.GeneralName⟩,
   ⟨"rfc5275.py:330", Rfc5275.GLMember, Rfc5275.GLMember⟩,
   ⟨"rfc5275.py:341", Rfc5275.GeneralName, Rfc5275.GeneralName⟩,
   ⟨"rfc5275.py:342", Rfc5275.KEKIdentifier, Rfc5275.KEKIdentifier⟩,
   ⟨"rfc5275.py:343", Rfc5275.RecipientInfos, Rfc5275.RecipientInfos⟩,
   ⟨"rfc5275.py:344", Rfc5275.AlgorithmIdentifier, Rfc5275.AlgorithmIdentifier⟩,
   ⟨"rfc5275.py:378", Rfc5275.SMIMECapabilities, Rfc5275.SMIMECapabilities⟩,
   ⟨"rfc5275.py:388", Rfc5275.GLUseKEK, Rfc5275.GLUseKEK⟩,
   ⟨"rfc5275.py:389", Rfc5275.DeleteGL, Rfc5275.DeleteGL⟩,
   ⟨"rfc5275.py:390", Rfc5275.GLAddMember, Rfc5275.GLAddMember⟩,
   ⟨"rfc5275.py:391", Rfc5275.GLDeleteMember, Rfc5275.GLDeleteMember⟩,
   ⟨"rfc5275.py:392", Rfc5275.GLRekey, Rfc5275.GLRekey⟩,
   ⟨"rfc5275.py:393", Rfc5275.GLOwnerAdministration, Rfc5275.GLOwnerAdministration⟩,
   ⟨"rfc5275.py:394", Rfc5275.GLOwnerAdministration, Rfc5275.GLOwnerAdministration⟩,
   ⟨"rfc5275.py:395", Rfc5275.GLKCompromise, Rfc5275.GLKCompromise⟩,
   ⟨"rfc5275.py:396", Rfc5275.GLKRefresh, Rfc5275.GLKRefresh⟩,
   ⟨"rfc5275.py:397", Rfc5275.GLAQueryRequest, Rfc5275.GLAQueryRequest⟩,
   ⟨"rfc5275.py:398", Rfc5275.GLAQueryResponse, Rfc5275.GLAQueryResponse⟩,
   ⟨"rfc5275.py:399", Rfc5275.GLManageCert, Rfc5275.GLManageCert⟩,
   ⟨"rfc5275.py:400", Rfc5275.GLManageCert, Rfc5275.GLManageCert⟩,
   ⟨"rfc5275.py:401", Rfc5275.GLKey, Rfc5275.GLKey⟩]

/-- Functions rfc5275.py defines. -/
def builders : List (String × (List Py.OidArg → Py.Obj)) :=
  []

def asModule : Py.Module :=
  { id := (Py.mod 71 "rfc5275"), imports := imports, effects := effects, classes := classes, objects := objects, protos := protos, snapshots := snapshots, builders := builders }

end Rfc5275
end Verif
