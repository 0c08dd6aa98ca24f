import Verif.Py.Obj
import Verif.Gen.Rfc2634
import Verif.Gen.Rfc4055
import Verif.Gen.Rfc5652
import Verif.Gen.Rfc5280

/-! Transcription of /repo/pyasn1_modules/rfc5035.py (generated by tools/gen.py). -/

namespace Verif
namespace Rfc5035

/-- rfc5035.py:26 alias of `rfc5652.ContentType` -/
def ContentType : Py.Obj :=
  Rfc5652.ContentType

/-- rfc5035.py:28 alias of `rfc5652.IssuerAndSerialNumber` -/
def IssuerAndSerialNumber : Py.Obj :=
  Rfc5652.IssuerAndSerialNumber

/-- rfc5035.py:30 alias of `rfc5652.SubjectKeyIdentifier` -/
def SubjectKeyIdentifier : Py.Obj :=
  Rfc5652.SubjectKeyIdentifier

/-- rfc5035.py:32 alias of `rfc5280.AlgorithmIdentifier` -/
def AlgorithmIdentifier : Py.Obj :=
  Rfc5280.AlgorithmIdentifier

/-- rfc5035.py:34 alias of `rfc5280.PolicyInformation` -/
def PolicyInformation : Py.Obj :=
  Rfc5280.PolicyInformation

/-- rfc5035.py:36 alias of `rfc5280.GeneralNames` -/
def GeneralNames : Py.Obj :=
  Rfc5280.GeneralNames

/-- rfc5035.py:38 alias of `rfc5280.CertificateSerialNumber` -/
def CertificateSerialNumber : Py.Obj :=
  Rfc5280.CertificateSerialNumber

/-- rfc5035.py:43 alias of `rfc2634.id_aa_signingCertificate` -/
def id_aa_signingCertificate : Py.Obj :=
  Rfc2634.id_aa_signingCertificate

/-- rfc5035.py:45 -/
def id_aa_signingCertificateV2 : Py.Obj :=
  (Py.univ.ObjectIdentifier.call.callArcs [1, 2, 840, 113549, 1, 9, 16, 2, 47])

/-- rfc5035.py:47 alias of `rfc2634.Hash` -/
def Hash : Py.Obj :=
  Rfc2634.Hash

/-- rfc5035.py:49 alias of `rfc2634.IssuerSerial` -/
def IssuerSerial : Py.Obj :=
  Rfc2634.IssuerSerial

/-- rfc5035.py:51 alias of `rfc2634.ESSCertID` -/
def ESSCertID : Py.Obj :=
  Rfc2634.ESSCertID

/-- rfc5035.py:53 alias of `rfc2634.SigningCertificate` -/
def SigningCertificate : Py.Obj :=
  Rfc2634.SigningCertificate

/-- rfc5035.py:56 -/
def sha256AlgId__0 : Py.Proto :=
  { obj := Rfc5035.AlgorithmIdentifier.call }

/-- rfc5035.py:57 `sha256AlgId['algorithm'] = ...` -/
def sha256AlgId__1 : Py.Proto :=
  Rfc5035.sha256AlgId__0.set "algorithm" (.obj Rfc4055.id_sha256)

/-- rfc5035.py:59 `sha256AlgId['parameters'] = ...` -/
def sha256AlgId : Py.Proto :=
  Rfc5035.sha256AlgId__1.set "parameters" (.encoded (Py.univ.OctetString.call.callStr ""))

/-- rfc5035.py:62-63 `class ESSCertIDv2(univ.Sequence)` -/
def ESSCertIDv2__0 : Py.Obj :=
  Py.univ.Sequence

/-- rfc5035.py:65-69 `ESSCertIDv2.componentType = ...` -/
def ESSCertIDv2 : Py.Obj :=
  Rfc5035.ESSCertIDv2__0.setComponentType (Py.NamedTypes [
    Py.DefaultedNamedType "hashAlgorithm" Rfc5035.sha256AlgId.toObj,
    Py.NamedType "certHash" Rfc5035.Hash.call,
    Py.OptionalNamedType "issuerSerial" Rfc5035.IssuerSerial.call])

/-- rfc5035.py:72-73 `class SigningCertificateV2(univ.Sequence)` -/
def SigningCertificateV2__0 : Py.Obj :=
  Py.univ.Sequence

/-- rfc5035.py:75-80 `SigningCertificateV2.componentType = ...` -/
def SigningCertificateV2 : Py.Obj :=
  Rfc5035.SigningCertificateV2__0.setComponentType (Py.NamedTypes [
    Py.NamedType "certs" (Py.univ.SequenceOf.call.setComponentTypeOf Rfc5035.ESSCertIDv2.call),
    Py.OptionalNamedType "policies" (Py.univ.SequenceOf.call.setComponentTypeOf Rfc5035.PolicyInformation.call)])

/-- rfc5035.py:85 alias of `rfc2634.id_aa_mlExpandHistory` -/
def id_aa_mlExpandHistory : Py.Obj :=
  Rfc2634.id_aa_mlExpandHistory

/-- rfc5035.py:87 alias of `rfc2634.ub_ml_expansion_history` -/
def ub_ml_expansion_history : Py.Obj :=
  Rfc2634.ub_ml_expansion_history

/-- rfc5035.py:89 alias of `rfc2634.EntityIdentifier` -/
def EntityIdentifier : Py.Obj :=
  Rfc2634.EntityIdentifier

/-- rfc5035.py:91 alias of `rfc2634.MLReceiptPolicy` -/
def MLReceiptPolicy : Py.Obj :=
  Rfc2634.MLReceiptPolicy

/-- rfc5035.py:93 alias of `rfc2634.MLData` -/
def MLData : Py.Obj :=
  Rfc2634.MLData

/-- rfc5035.py:95 alias of `rfc2634.MLExpansionHistory` -/
def MLExpansionHistory : Py.Obj :=
  Rfc2634.MLExpansionHistory

/-- rfc5035.py:100 alias of `rfc2634.id_aa_securityLabel` -/
def id_aa_securityLabel : Py.Obj :=
  Rfc2634.id_aa_securityLabel

/-- rfc5035.py:102 alias of `rfc2634.ub_privacy_mark_length` -/
def ub_privacy_mark_length : Py.Obj :=
  Rfc2634.ub_privacy_mark_length

/-- rfc5035.py:104 alias of `rfc2634.ub_security_categories` -/
def ub_security_categories : Py.Obj :=
  Rfc2634.ub_security_categories

/-- rfc5035.py:106 alias of `rfc2634.ub_integer_options` -/
def ub_integer_options : Py.Obj :=
  Rfc2634.ub_integer_options

/-- rfc5035.py:108 alias of `rfc2634.ESSPrivacyMark` -/
def ESSPrivacyMark : Py.Obj :=
  Rfc2634.ESSPrivacyMark

/-- rfc5035.py:110 alias of `rfc2634.SecurityClassification` -/
def SecurityClassification : Py.Obj :=
  Rfc2634.SecurityClassification

/-- rfc5035.py:112 alias of `rfc2634.SecurityPolicyIdentifier` -/
def SecurityPolicyIdentifier : Py.Obj :=
  Rfc2634.SecurityPolicyIdentifier

/-- rfc5035.py:114 alias of `rfc2634.SecurityCategory` -/
def SecurityCategory : Py.Obj :=
  Rfc2634.SecurityCategory

/-- rfc5035.py:116 alias of `rfc2634.SecurityCategories` -/
def SecurityCategories : Py.Obj :=
  Rfc2634.SecurityCategories

/-- rfc5035.py:118 alias of `rfc2634.ESSSecurityLabel` -/
def ESSSecurityLabel : Py.Obj :=
  Rfc2634.ESSSecurityLabel

/-- rfc5035.py:123 alias of `rfc2634.id_aa_equivalentLabels` -/
def id_aa_equivalentLabels : Py.Obj :=
  Rfc2634.id_aa_equivalentLabels

/-- rfc5035.py:125 alias of `rfc2634.EquivalentLabels` -/
def EquivalentLabels : Py.Obj :=
  Rfc2634.EquivalentLabels

/-- rfc5035.py:130 alias of `rfc2634.id_aa_contentIdentifier` -/
def id_aa_contentIdentifier : Py.Obj :=
  Rfc2634.id_aa_contentIdentifier

/-- rfc5035.py:132 alias of `rfc2634.ContentIdentifier` -/
def ContentIdentifier : Py.Obj :=
  Rfc2634.ContentIdentifier

/-- rfc5035.py:137 alias of `rfc2634.id_aa_contentReference` -/
def id_aa_contentReference : Py.Obj :=
  Rfc2634.id_aa_contentReference

/-- rfc5035.py:139 alias of `rfc2634.ContentReference` -/
def ContentReference : Py.Obj :=
  Rfc2634.ContentReference

/-- rfc5035.py:144 alias of `rfc2634.id_aa_msgSigDigest` -/
def id_aa_msgSigDigest : Py.Obj :=
  Rfc2634.id_aa_msgSigDigest

/-- rfc5035.py:146 alias of `rfc2634.MsgSigDigest` -/
def MsgSigDigest : Py.Obj :=
  Rfc2634.MsgSigDigest

/-- rfc5035.py:151 alias of `rfc2634.id_aa_contentHint` -/
def id_aa_contentHint : Py.Obj :=
  Rfc2634.id_aa_contentHint

/-- rfc5035.py:153 alias of `rfc2634.ContentHints` -/
def ContentHints : Py.Obj :=
  Rfc2634.ContentHints

/-- rfc5035.py:158 alias of `rfc2634.AllOrFirstTier` -/
def AllOrFirstTier : Py.Obj :=
  Rfc2634.AllOrFirstTier

/-- rfc5035.py:160 alias of `rfc2634.ReceiptsFrom` -/
def ReceiptsFrom : Py.Obj :=
  Rfc2634.ReceiptsFrom

/-- rfc5035.py:162 alias of `rfc2634.id_aa_receiptRequest` -/
def id_aa_receiptRequest : Py.Obj :=
  Rfc2634.id_aa_receiptRequest

/-- rfc5035.py:164 alias of `rfc2634.ub_receiptsTo` -/
def ub_receiptsTo__0 : Py.Obj :=
  Rfc2634.ub_receiptsTo

/-- rfc5035.py:166 alias of `rfc2634.ReceiptRequest` -/
def ReceiptRequest__0 : Py.Obj :=
  Rfc2634.ReceiptRequest

/-- rfc5035.py:171 alias of `rfc2634.ESSVersion` -/
def ESSVersion : Py.Obj :=
  Rfc2634.ESSVersion

/-- rfc5035.py:173 alias of `rfc2634.id_ct_receipt` -/
def id_ct_receipt : Py.Obj :=
  Rfc2634.id_ct_receipt

/-- rfc5035.py:175 alias of `rfc2634.Receipt` -/
def Receipt : Py.Obj :=
  Rfc2634.Receipt

/-- rfc5035.py:177 alias of `rfc2634.ub_receiptsTo` -/
def ub_receiptsTo : Py.Obj :=
  Rfc2634.ub_receiptsTo

/-- rfc5035.py:179 alias of `rfc2634.ReceiptRequest` -/
def ReceiptRequest : Py.Obj :=
  Rfc2634.ReceiptRequest

/-- rfc5035.py:185-187 -/
def _cmsAttributesMapUpdate : Py.Entries :=
  [(Rfc5035.id_aa_signingCertificateV2.value, Rfc5035.SigningCertificateV2.call.ty)]

/-- rfc5035.py:195-197 -/
def _cmsContentTypesMapUpdate : Py.Entries :=
  [(Rfc5035.id_ct_receipt.value, Rfc5035.Receipt.call.ty)]

/-- Modules of this package imported by rfc5035.py, in textual order. -/
def imports : List Py.Ident :=
  [(Py.mod 17 "rfc2634"), (Py.mod 42 "rfc4055"), (Py.mod 16 "rfc5652"), (Py.mod 15 "rfc5280")]

/-- Dictionary operations executed when rfc5035.py is imported, in program order. -/
def effects : List Py.Effect :=
  [.create (Py.map 71 "rfc5035._cmsAttributesMapUpdate") Rfc5035._cmsAttributesMapUpdate /- rfc5035.py:185-187 -/,
   .update (Py.map 8 "rfc5652.cmsAttributesMap") Rfc5035._cmsAttributesMapUpdate /- rfc5035.py:189 -/,
   .create (Py.map 72 "rfc5035._cmsContentTypesMapUpdate") Rfc5035._cmsContentTypesMapUpdate /- rfc5035.py:195-197 -/,
   .update (Py.map 13 "rfc5652.cmsContentTypesMap") Rfc5035._cmsContentTypesMapUpdate /- rfc5035.py:199 -/]

/-- ASN.1 types rfc5035.py binds at module level (final version of each name), plus nested classes. -/
def classes : List (String × Py.Obj) :=
  [("rfc5035.ContentType", Rfc5035.ContentType),
   ("rfc5035.IssuerAndSerialNumber", Rfc5035.IssuerAndSerialNumber),
   ("rfc5035.SubjectKeyIdentifier", Rfc5035.SubjectKeyIdentifier),
   ("rfc5035.AlgorithmIdentifier", Rfc5035.AlgorithmIdentifier),
   ("rfc5035.PolicyInformation", Rfc5035.PolicyInformation),
   ("rfc5035.GeneralNames", Rfc5035.GeneralNames),
   ("rfc5035.CertificateSerialNumber", Rfc5035.CertificateSerialNumber),
   ("rfc5035.Hash", Rfc5035.Hash),
   ("rfc5035.IssuerSerial", Rfc5035.IssuerSerial),
   ("rfc5035.ESSCertID", Rfc5035.ESSCertID),
   ("rfc5035.SigningCertificate", Rfc5035.SigningCertificate),
   ("rfc5035.ESSCertIDv2", Rfc5035.ESSCertIDv2),
   ("rfc5035.SigningCertificateV2", Rfc5035.SigningCertificateV2),
   ("rfc5035.EntityIdentifier", Rfc5035.EntityIdentifier),
   ("rfc5035.MLReceiptPolicy", Rfc5035.MLReceiptPolicy),
   ("rfc5035.MLData", Rfc5035.MLData),
   ("rfc5035.MLExpansionHistory", Rfc5035.MLExpansionHistory),
   ("rfc5035.ESSPrivacyMark", Rfc5035.ESSPrivacyMark),
   ("rfc5035.SecurityClassification", Rfc5035.SecurityClassification),
   ("rfc5035.SecurityPolicyIdentifier", Rfc5035.SecurityPolicyIdentifier),
   ("rfc5035.SecurityCategory", Rfc5035.SecurityCategory),
   ("rfc5035.SecurityCategories", Rfc5035.SecurityCategories),
   ("rfc5035.ESSSecurityLabel", Rfc5035.ESSSecurityLabel),
   ("rfc5035.EquivalentLabels", Rfc5035.EquivalentLabels),
   ("rfc5035.ContentIdentifier", Rfc5035.ContentIdentifier),
   ("rfc5035.ContentReference", Rfc5035.ContentReference),
   ("rfc5035.MsgSigDigest", Rfc5035.MsgSigDigest),
   ("rfc5035.ContentHints", Rfc5035.ContentHints),
   ("rfc5035.AllOrFirstTier", Rfc5035.AllOrFirstTier),
   ("rfc5035.ReceiptsFrom", Rfc5035.ReceiptsFrom),
   ("rfc5035.ReceiptRequest", Rfc5035.ReceiptRequest),
   ("rfc5035.ESSVersion", Rfc5035.ESSVersion),
   ("rfc5035.Receipt", Rfc5035.Receipt)]

/-- pyasn1 instances rfc5035.py binds at module level. -/
def objects : List (String × Py.Obj) :=
  [("rfc5035.id_aa_signingCertificate", Rfc5035.id_aa_signingCertificate),
   ("rfc5035.id_aa_signingCertificateV2", Rfc5035.id_aa_signingCertificateV2),
   ("rfc5035.id_aa_mlExpandHistory", Rfc5035.id_aa_mlExpandHistory),
   ("rfc5035.ub_ml_expansion_history", Rfc5035.ub_ml_expansion_history),
   ("rfc5035.id_aa_securityLabel", Rfc5035.id_aa_securityLabel),
   ("rfc5035.ub_privacy_mark_length", Rfc5035.ub_privacy_mark_length),
   ("rfc5035.ub_security_categories", Rfc5035.ub_security_categories),
   ("rfc5035.ub_integer_options", Rfc5035.ub_integer_options),
   ("rfc5035.id_aa_equivalentLabels", Rfc5035.id_aa_equivalentLabels),
   ("rfc5035.id_aa_contentIdentifier", Rfc5035.id_aa_contentIdentifier),
   ("rfc5035.id_aa_contentReference", Rfc5035.id_aa_contentReference),
   ("rfc5035.id_aa_msgSigDigest", Rfc5035.id_aa_msgSigDigest),
   ("rfc5035.id_aa_contentHint", Rfc5035.id_aa_contentHint),
   ("rfc5035.id_aa_receiptRequest", Rfc5035.id_aa_receiptRequest),
   ("rfc5035.ub_receiptsTo", Rfc5035.ub_receiptsTo),
   ("rfc5035.id_ct_receipt", Rfc5035.id_ct_receipt)]

/-- pyasn1 instances rfc5035.py fills in by item assignment. -/
def protos : List (String × Py.Proto) :=
  [("rfc5035.sha256AlgId", Rfc5035.sha256AlgId)]

/-- Every place of rfc5035.py that instantiates a class of the package: where, the class as it is
at that point, and the class as it is when the import has finished. -/
def snapshots : List Py.Snapshot :=
  [⟨"rfc5035.py:56", Rfc5035.AlgorithmIdentifier, Rfc5035.AlgorithmIdentifier⟩,
   ⟨"rfc5035.py:67", Rfc5035.Hash, Rfc5035.Hash⟩,
   ⟨"rfc5035.py:68", Rfc5035.IssuerSerial, Rfc5035.IssuerSerial⟩,
   ⟨"rfc5035.py:77", Rfc5035.ESSCertIDv2, Rfc5035.ESSCertIDv2⟩,
   ⟨"rfc5035.py:79", Rfc5035.PolicyInformation, Rfc5035.PolicyInformation⟩,
   ⟨"rfc5035.py:186", Rfc5035.SigningCertificateV2, Rfc5035.SigningCertificateV2⟩,
   ⟨"rfc5035.py:196", Rfc5035.Receipt, Rfc5035.Receipt⟩]

/-- Functions rfc5035.py defines. -/
def builders : List (String × (List Py.OidArg → Py.Obj)) :=
  []

def asModule : Py.Module :=
  { id := (Py.mod 65 "rfc5035"), imports := imports, effects := effects, classes := classes, objects := objects, protos := protos, snapshots := snapshots, builders := builders }

end Rfc5035
end Verif
