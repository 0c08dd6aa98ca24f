import Verif.Py.Obj
import Verif.Gen.Rfc2634
import Verif.Gen.Rfc4108
import Verif.Gen.Rfc5280
import Verif.Gen.Rfc5652
import Verif.Gen.Rfc6010
import Verif.Gen.Rfc6019
import Verif.Gen.Rfc7191

/-! Transcription of /repo/pyasn1_modules/rfc7906.py (generated by tools/gen.py). -/

namespace Verif
namespace Rfc7906

/-- rfc7906.py:31 -/
def MAX : Py.Bound :=
  .inf

/-- rfc7906.py:36 alias of `rfc2634.id_aa_contentHint` -/
def id_aa_contentHint : Py.Obj :=
  Rfc2634.id_aa_contentHint

/-- rfc7906.py:38 alias of `rfc2634.ContentHints` -/
def ContentHints : Py.Obj :=
  Rfc2634.ContentHints

/-- rfc7906.py:40 alias of `rfc2634.id_aa_securityLabel` -/
def id_aa_securityLabel : Py.Obj :=
  Rfc2634.id_aa_securityLabel

/-- rfc7906.py:42 alias of `rfc2634.SecurityPolicyIdentifier` -/
def SecurityPolicyIdentifier : Py.Obj :=
  Rfc2634.SecurityPolicyIdentifier

/-- rfc7906.py:44 alias of `rfc2634.SecurityClassification` -/
def SecurityClassification : Py.Obj :=
  Rfc2634.SecurityClassification

/-- rfc7906.py:46 alias of `rfc2634.ESSPrivacyMark` -/
def ESSPrivacyMark : Py.Obj :=
  Rfc2634.ESSPrivacyMark

/-- rfc7906.py:48 alias of `rfc2634.SecurityCategories` -/
def SecurityCategories : Py.Obj :=
  Rfc2634.SecurityCategories

/-- rfc7906.py:50 alias of `rfc2634.ESSSecurityLabel` -/
def ESSSecurityLabel : Py.Obj :=
  Rfc2634.ESSSecurityLabel

/-- rfc7906.py:55 alias of `rfc4108.id_aa_communityIdentifiers` -/
def id_aa_communityIdentifiers : Py.Obj :=
  Rfc4108.id_aa_communityIdentifiers

/-- rfc7906.py:57 alias of `rfc4108.CommunityIdentifier` -/
def CommunityIdentifier : Py.Obj :=
  Rfc4108.CommunityIdentifier

/-- rfc7906.py:59 alias of `rfc4108.CommunityIdentifiers` -/
def CommunityIdentifiers : Py.Obj :=
  Rfc4108.CommunityIdentifiers

/-- rfc7906.py:64 alias of `rfc5280.AlgorithmIdentifier` -/
def AlgorithmIdentifier : Py.Obj :=
  Rfc5280.AlgorithmIdentifier

/-- rfc7906.py:66 alias of `rfc5280.Name` -/
def Name : Py.Obj :=
  Rfc5280.Name

/-- rfc7906.py:68 alias of `rfc5280.Certificate` -/
def Certificate : Py.Obj :=
  Rfc5280.Certificate

/-- rfc7906.py:70 alias of `rfc5280.GeneralNames` -/
def GeneralNames : Py.Obj :=
  Rfc5280.GeneralNames

/-- rfc7906.py:72 alias of `rfc5280.GeneralName` -/
def GeneralName : Py.Obj :=
  Rfc5280.GeneralName

/-- rfc7906.py:75 alias of `rfc5280.SubjectInfoAccessSyntax` -/
def SubjectInfoAccessSyntax : Py.Obj :=
  Rfc5280.SubjectInfoAccessSyntax

/-- rfc7906.py:77 alias of `rfc5280.id_pkix` -/
def id_pkix : Py.Obj :=
  Rfc5280.id_pkix

/-- rfc7906.py:79 alias of `rfc5280.id_pe` -/
def id_pe : Py.Obj :=
  Rfc5280.id_pe

/-- rfc7906.py:81 alias of `rfc5280.id_pe_subjectInfoAccess` -/
def id_pe_subjectInfoAccess : Py.Obj :=
  Rfc5280.id_pe_subjectInfoAccess

/-- rfc7906.py:86 alias of `rfc6010.CMSContentConstraints` -/
def CMSContentConstraints : Py.Obj :=
  Rfc6010.CMSContentConstraints

/-- rfc7906.py:91 alias of `rfc6019.BinaryTime` -/
def BinaryTime : Py.Obj :=
  Rfc6019.BinaryTime

/-- rfc7906.py:93 alias of `rfc6019.id_aa_binarySigningTime` -/
def id_aa_binarySigningTime : Py.Obj :=
  Rfc6019.id_aa_binarySigningTime

/-- rfc7906.py:95 alias of `rfc6019.BinarySigningTime` -/
def BinarySigningTime : Py.Obj :=
  Rfc6019.BinarySigningTime

/-- rfc7906.py:100 alias of `rfc5652.Attribute` -/
def Attribute : Py.Obj :=
  Rfc5652.Attribute

/-- rfc7906.py:102 alias of `rfc5652.CertificateSet` -/
def CertificateSet : Py.Obj :=
  Rfc5652.CertificateSet

/-- rfc7906.py:104 alias of `rfc5652.CertificateChoices` -/
def CertificateChoices : Py.Obj :=
  Rfc5652.CertificateChoices

/-- rfc7906.py:106 alias of `rfc5652.id_contentType` -/
def id_contentType : Py.Obj :=
  Rfc5652.id_contentType

/-- rfc7906.py:108 alias of `rfc5652.ContentType` -/
def ContentType : Py.Obj :=
  Rfc5652.ContentType

/-- rfc7906.py:110 alias of `rfc5652.id_messageDigest` -/
def id_messageDigest : Py.Obj :=
  Rfc5652.id_messageDigest

/-- rfc7906.py:112 alias of `rfc5652.MessageDigest` -/
def MessageDigest : Py.Obj :=
  Rfc5652.MessageDigest

/-- rfc7906.py:117 alias of `rfc7191.SIREntityName` -/
def SIREntityName : Py.Obj :=
  Rfc7191.SIREntityName

/-- rfc7906.py:119 alias of `rfc7191.id_aa_KP_keyPkgIdAndReceiptReq` -/
def id_aa_KP_keyPkgIdAndReceiptReq : Py.Obj :=
  Rfc7191.id_aa_KP_keyPkgIdAndReceiptReq

/-- rfc7906.py:121 alias of `rfc7191.KeyPkgIdentifierAndReceiptReq` -/
def KeyPkgIdentifierAndReceiptReq : Py.Obj :=
  Rfc7191.KeyPkgIdentifierAndReceiptReq

/-- rfc7906.py:126 -/
def id_aa_KP_keyProvinceV2 : Py.Obj :=
  (Py.univ.ObjectIdentifier.call.callArcs [2, 16, 840, 1, 101, 2, 1, 5, 71])

/-- rfc7906.py:129-130 `class KeyProvinceV2(univ.ObjectIdentifier)` -/
def KeyProvinceV2 : Py.Obj :=
  Py.univ.ObjectIdentifier

/-- rfc7906.py:133 -/
def aa_keyProvince_v2__0 : Py.Proto :=
  { obj := Rfc7906.Attribute.call }

/-- rfc7906.py:134 `aa_keyProvince_v2['attrType'] = ...` -/
def aa_keyProvince_v2__1 : Py.Proto :=
  Rfc7906.aa_keyProvince_v2__0.set "attrType" (.obj Rfc7906.id_aa_KP_keyProvinceV2)

/-- rfc7906.py:135 `aa_keyProvince_v2['attrValues'][0] = ...` -/
def aa_keyProvince_v2 : Py.Proto :=
  Rfc7906.aa_keyProvince_v2__1.set "attrValues" (.elem0 Rfc7906.KeyProvinceV2.call)

/-- rfc7906.py:140 -/
def id_aa_KP_manifest : Py.Obj :=
  (Py.univ.ObjectIdentifier.call.callArcs [2, 16, 840, 1, 101, 2, 1, 5, 72])

/-- rfc7906.py:143-144 `class ShortTitle(char.PrintableString)` -/
def ShortTitle : Py.Obj :=
  Py.char.PrintableString

/-- rfc7906.py:147-148 `class Manifest(univ.SequenceOf)` -/
def Manifest__0 : Py.Obj :=
  Py.univ.SequenceOf

/-- rfc7906.py:150 `Manifest.componentType = ...` -/
def Manifest__1 : Py.Obj :=
  Rfc7906.Manifest__0.setComponentTypeOf Rfc7906.ShortTitle.call

/-- rfc7906.py:151 `Manifest.subtypeSpec = ...` -/
def Manifest : Py.Obj :=
  Rfc7906.Manifest__1.setSubtypeSpec (Py.ValueSizeConstraint (.fin 1) Rfc7906.MAX)

/-- rfc7906.py:154 -/
def aa_manifest__0 : Py.Proto :=
  { obj := Rfc7906.Attribute.call }

/-- rfc7906.py:155 `aa_manifest['attrType'] = ...` -/
def aa_manifest__1 : Py.Proto :=
  Rfc7906.aa_manifest__0.set "attrType" (.obj Rfc7906.id_aa_KP_manifest)

/-- rfc7906.py:156 `aa_manifest['attrValues'][0] = ...` -/
def aa_manifest : Py.Proto :=
  Rfc7906.aa_manifest__1.set "attrValues" (.elem0 Rfc7906.Manifest.call)

/-- rfc7906.py:161 -/
def id_kma_keyAlgorithm : Py.Obj :=
  (Py.univ.ObjectIdentifier.call.callArcs [2, 16, 840, 1, 101, 2, 1, 13, 1])

/-- rfc7906.py:164-165 `class KeyAlgorithm(univ.Sequence)` -/
def KeyAlgorithm__0 : Py.Obj :=
  Py.univ.Sequence

/-- rfc7906.py:167-173 `KeyAlgorithm.componentType = ...` -/
def KeyAlgorithm : Py.Obj :=
  Rfc7906.KeyAlgorithm__0.setComponentType (Py.NamedTypes [
    Py.NamedType "keyAlg" Py.univ.ObjectIdentifier.call,
    Py.OptionalNamedType "checkWordAlg" (Py.univ.ObjectIdentifier.call.implicitTag (Py.Tag .context false 1)),
    Py.OptionalNamedType "crcAlg" (Py.univ.ObjectIdentifier.call.implicitTag (Py.Tag .context false 2))])

/-- rfc7906.py:176 -/
def aa_keyAlgorithm__0 : Py.Proto :=
  { obj := Rfc7906.Attribute.call }

/-- rfc7906.py:177 `aa_keyAlgorithm['attrType'] = ...` -/
def aa_keyAlgorithm__1 : Py.Proto :=
  Rfc7906.aa_keyAlgorithm__0.set "attrType" (.obj Rfc7906.id_kma_keyAlgorithm)

/-- rfc7906.py:178 `aa_keyAlgorithm['attrValues'][0] = ...` -/
def aa_keyAlgorithm : Py.Proto :=
  Rfc7906.aa_keyAlgorithm__1.set "attrValues" (.elem0 Rfc7906.KeyAlgorithm.call)

/-- rfc7906.py:183 -/
def id_at_userCertificate : Py.Obj :=
  (Py.univ.ObjectIdentifier.call.callArcs [2, 5, 4, 36])

/-- rfc7906.py:186 -/
def aa_userCertificate__0 : Py.Proto :=
  { obj := Rfc7906.Attribute.call }

/-- rfc7906.py:187 `aa_userCertificate['attrType'] = ...` -/
def aa_userCertificate__1 : Py.Proto :=
  Rfc7906.aa_userCertificate__0.set "attrType" (.obj Rfc7906.id_at_userCertificate)

/-- rfc7906.py:188 `aa_userCertificate['attrValues'][0] = ...` -/
def aa_userCertificate : Py.Proto :=
  Rfc7906.aa_userCertificate__1.set "attrValues" (.elem0 Rfc7906.Certificate.call)

/-- rfc7906.py:193 -/
def id_kma_keyPkgReceiversV2 : Py.Obj :=
  (Py.univ.ObjectIdentifier.call.callArcs [2, 16, 840, 1, 101, 2, 1, 13, 16])

/-- rfc7906.py:196-197 `class KeyPkgReceiver(univ.Choice)` -/
def KeyPkgReceiver__0 : Py.Obj :=
  Py.univ.Choice

/-- rfc7906.py:199-204 `KeyPkgReceiver.componentType = ...` -/
def KeyPkgReceiver : Py.Obj :=
  Rfc7906.KeyPkgReceiver__0.setComponentType (Py.NamedTypes [
    Py.NamedType "sirEntity" (Rfc7906.SIREntityName.call.implicitTag (Py.Tag .context false 0)),
    Py.NamedType "community" (Rfc7906.CommunityIdentifier.call.implicitTag (Py.Tag .context false 1))])

/-- rfc7906.py:207-208 `class KeyPkgReceiversV2(univ.SequenceOf)` -/
def KeyPkgReceiversV2__0 : Py.Obj :=
  Py.univ.SequenceOf

/-- rfc7906.py:210 `KeyPkgReceiversV2.componentType = ...` -/
def KeyPkgReceiversV2__1 : Py.Obj :=
  Rfc7906.KeyPkgReceiversV2__0.setComponentTypeOf Rfc7906.KeyPkgReceiver.call

/-- rfc7906.py:211 `KeyPkgReceiversV2.subtypeSpec = ...` -/
def KeyPkgReceiversV2 : Py.Obj :=
  Rfc7906.KeyPkgReceiversV2__1.setSubtypeSpec (Py.ValueSizeConstraint (.fin 1) Rfc7906.MAX)

/-- rfc7906.py:214 -/
def aa_keyPackageReceivers_v2__0 : Py.Proto :=
  { obj := Rfc7906.Attribute.call }

/-- rfc7906.py:215 `aa_keyPackageReceivers_v2['attrType'] = ...` -/
def aa_keyPackageReceivers_v2__1 : Py.Proto :=
  Rfc7906.aa_keyPackageReceivers_v2__0.set "attrType" (.obj Rfc7906.id_kma_keyPkgReceiversV2)

/-- rfc7906.py:216 `aa_keyPackageReceivers_v2['attrValues'][0] = ...` -/
def aa_keyPackageReceivers_v2 : Py.Proto :=
  Rfc7906.aa_keyPackageReceivers_v2__1.set "attrValues" (.elem0 Rfc7906.KeyPkgReceiversV2.call)

/-- rfc7906.py:221 -/
def id_kma_TSECNomenclature : Py.Obj :=
  (Py.univ.ObjectIdentifier.call.callArcs [2, 16, 840, 1, 101, 2, 1, 13, 3])

/-- rfc7906.py:224-225 `class CharEdition(char.PrintableString)` -/
def CharEdition : Py.Obj :=
  Py.char.PrintableString

/-- rfc7906.py:228-229 `class CharEditionRange(univ.Sequence)` -/
def CharEditionRange__0 : Py.Obj :=
  Py.univ.Sequence

/-- rfc7906.py:231-234 `CharEditionRange.componentType = ...` -/
def CharEditionRange : Py.Obj :=
  Rfc7906.CharEditionRange__0.setComponentType (Py.NamedTypes [
    Py.NamedType "firstCharEdition" Rfc7906.CharEdition.call,
    Py.NamedType "lastCharEdition" Rfc7906.CharEdition.call])

/-- rfc7906.py:237-238 `class NumEdition(univ.Integer)` -/
def NumEdition__0 : Py.Obj :=
  Py.univ.Integer

/-- rfc7906.py:240 `NumEdition.subtypeSpec = ...` -/
def NumEdition : Py.Obj :=
  Rfc7906.NumEdition__0.setSubtypeSpec (Py.ValueRangeConstraint (.fin 0) (.fin 308915776))

/-- rfc7906.py:243-244 `class NumEditionRange(univ.Sequence)` -/
def NumEditionRange__0 : Py.Obj :=
  Py.univ.Sequence

/-- rfc7906.py:246-249 `NumEditionRange.componentType = ...` -/
def NumEditionRange : Py.Obj :=
  Rfc7906.NumEditionRange__0.setComponentType (Py.NamedTypes [
    Py.NamedType "firstNumEdition" Rfc7906.NumEdition.call,
    Py.NamedType "lastNumEdition" Rfc7906.NumEdition.call])

/-- rfc7906.py:252-253 `class EditionID(univ.Choice)` -/
def EditionID__0 : Py.Obj :=
  Py.univ.Choice

/-- rfc7906.py:255-270 `EditionID.componentType = ...` -/
def EditionID : Py.Obj :=
  Rfc7906.EditionID__0.setComponentType (Py.NamedTypes [
    Py.NamedType "char" (Py.univ.Choice.call.setComponentType (Py.NamedTypes [
    Py.NamedType "charEdition" (Rfc7906.CharEdition.call.implicitTag (Py.Tag .context false 1)),
    Py.NamedType "charEditionRange" (Rfc7906.CharEditionRange.call.implicitTag (Py.Tag .context true 2))])),
    Py.NamedType "num" (Py.univ.Choice.call.setComponentType (Py.NamedTypes [
    Py.NamedType "numEdition" (Rfc7906.NumEdition.call.implicitTag (Py.Tag .context false 3)),
    Py.NamedType "numEditionRange" (Rfc7906.NumEditionRange.call.implicitTag (Py.Tag .context true 4))]))])

/-- rfc7906.py:273-274 `class Register(univ.Integer)` -/
def Register__0 : Py.Obj :=
  Py.univ.Integer

/-- rfc7906.py:276 `Register.subtypeSpec = ...` -/
def Register : Py.Obj :=
  Rfc7906.Register__0.setSubtypeSpec (Py.ValueRangeConstraint (.fin 0) (.fin 2147483647))

/-- rfc7906.py:279-280 `class RegisterRange(univ.Sequence)` -/
def RegisterRange__0 : Py.Obj :=
  Py.univ.Sequence

/-- rfc7906.py:282-285 `RegisterRange.componentType = ...` -/
def RegisterRange : Py.Obj :=
  Rfc7906.RegisterRange__0.setComponentType (Py.NamedTypes [
    Py.NamedType "firstRegister" Rfc7906.Register.call,
    Py.NamedType "lastRegister" Rfc7906.Register.call])

/-- rfc7906.py:288-289 `class RegisterID(univ.Choice)` -/
def RegisterID__0 : Py.Obj :=
  Py.univ.Choice

/-- rfc7906.py:291-296 `RegisterID.componentType = ...` -/
def RegisterID : Py.Obj :=
  Rfc7906.RegisterID__0.setComponentType (Py.NamedTypes [
    Py.NamedType "register" (Rfc7906.Register.call.implicitTag (Py.Tag .context false 5)),
    Py.NamedType "registerRange" (Rfc7906.RegisterRange.call.implicitTag (Py.Tag .context true 6))])

/-- rfc7906.py:299-300 `class SegmentNumber(univ.Integer)` -/
def SegmentNumber__0 : Py.Obj :=
  Py.univ.Integer

/-- rfc7906.py:302 `SegmentNumber.subtypeSpec = ...` -/
def SegmentNumber : Py.Obj :=
  Rfc7906.SegmentNumber__0.setSubtypeSpec (Py.ValueRangeConstraint (.fin 1) (.fin 127))

/-- rfc7906.py:305-306 `class SegmentRange(univ.Sequence)` -/
def SegmentRange__0 : Py.Obj :=
  Py.univ.Sequence

/-- rfc7906.py:308-311 `SegmentRange.componentType = ...` -/
def SegmentRange : Py.Obj :=
  Rfc7906.SegmentRange__0.setComponentType (Py.NamedTypes [
    Py.NamedType "firstSegment" Rfc7906.SegmentNumber.call,
    Py.NamedType "lastSegment" Rfc7906.SegmentNumber.call])

/-- rfc7906.py:314-315 `class SegmentID(univ.Choice)` -/
def SegmentID__0 : Py.Obj :=
  Py.univ.Choice

/-- rfc7906.py:317-322 `SegmentID.componentType = ...` -/
def SegmentID : Py.Obj :=
  Rfc7906.SegmentID__0.setComponentType (Py.NamedTypes [
    Py.NamedType "segmentNumber" (Rfc7906.SegmentNumber.call.implicitTag (Py.Tag .context false 7)),
    Py.NamedType "segmentRange" (Rfc7906.SegmentRange.call.implicitTag (Py.Tag .context true 8))])

/-- rfc7906.py:325-326 `class TSECNomenclature(univ.Sequence)` -/
def TSECNomenclature__0 : Py.Obj :=
  Py.univ.Sequence

/-- rfc7906.py:328-333 `TSECNomenclature.componentType = ...` -/
def TSECNomenclature : Py.Obj :=
  Rfc7906.TSECNomenclature__0.setComponentType (Py.NamedTypes [
    Py.NamedType "shortTitle" Rfc7906.ShortTitle.call,
    Py.OptionalNamedType "editionID" Rfc7906.EditionID.call,
    Py.OptionalNamedType "registerID" Rfc7906.RegisterID.call,
    Py.OptionalNamedType "segmentID" Rfc7906.SegmentID.call])

/-- rfc7906.py:336 -/
def aa_tsecNomenclature__0 : Py.Proto :=
  { obj := Rfc7906.Attribute.call }

/-- rfc7906.py:337 `aa_tsecNomenclature['attrType'] = ...` -/
def aa_tsecNomenclature__1 : Py.Proto :=
  Rfc7906.aa_tsecNomenclature__0.set "attrType" (.obj Rfc7906.id_kma_TSECNomenclature)

/-- rfc7906.py:338 `aa_tsecNomenclature['attrValues'][0] = ...` -/
def aa_tsecNomenclature : Py.Proto :=
  Rfc7906.aa_tsecNomenclature__1.set "attrValues" (.elem0 Rfc7906.TSECNomenclature.call)

/-- rfc7906.py:343 -/
def id_kma_keyPurpose : Py.Obj :=
  (Py.univ.ObjectIdentifier.call.callArcs [2, 16, 840, 1, 101, 2, 1, 13, 13])

/-- rfc7906.py:346-347 `class KeyPurpose(univ.Enumerated)` -/
def KeyPurpose__0 : Py.Obj :=
  Py.univ.Enumerated

/-- rfc7906.py:349-361 `KeyPurpose.namedValues = ...` -/
def KeyPurpose : Py.Obj :=
  Rfc7906.KeyPurpose__0.setNamedValues (Py.NamedValues [("n-a", 0), ("a", 65), ("b", 66), ("l", 76), ("m", 77), ("r", 82), ("s", 83), ("t", 84), ("v", 86), ("x", 88), ("z", 90)])

/-- rfc7906.py:364 -/
def aa_keyPurpose__0 : Py.Proto :=
  { obj := Rfc7906.Attribute.call }

/-- rfc7906.py:365 `aa_keyPurpose['attrType'] = ...` -/
def aa_keyPurpose__1 : Py.Proto :=
  Rfc7906.aa_keyPurpose__0.set "attrType" (.obj Rfc7906.id_kma_keyPurpose)

/-- rfc7906.py:366 `aa_keyPurpose['attrValues'][0] = ...` -/
def aa_keyPurpose__2 : Py.Proto :=
  Rfc7906.aa_keyPurpose__1.set "attrValues" (.elem0 Rfc7906.KeyPurpose.call)

/-- rfc7906.py:371 -/
def id_kma_keyUse : Py.Obj :=
  (Py.univ.ObjectIdentifier.call.callArcs [2, 16, 840, 1, 101, 2, 1, 13, 14])

/-- rfc7906.py:374-375 `class KeyUse(univ.Enumerated)` -/
def KeyUse__0 : Py.Obj :=
  Py.univ.Enumerated

/-- rfc7906.py:377-402 `KeyUse.namedValues = ...` -/
def KeyUse : Py.Obj :=
  Rfc7906.KeyUse__0.setNamedValues (Py.NamedValues [("n-a", 0), ("ffk", 1), ("kek", 2), ("kpk", 3), ("msk", 4), ("qkek", 5), ("tek", 6), ("tsk", 7), ("trkek", 8), ("nfk", 9), ("effk", 10), ("ebfk", 11), ("aek", 12), ("wod", 13), ("kesk", 246), ("eik", 247), ("ask", 248), ("kmk", 249), ("rsk", 250), ("csk", 251), ("sak", 252), ("rgk", 253), ("cek", 254), ("exk", 255)])

/-- rfc7906.py:405 -/
def aa_keyUse : Py.Obj :=
  Rfc7906.Attribute.call

/-- rfc7906.py:406 `aa_keyPurpose['attrType'] = ...` -/
def aa_keyPurpose__3 : Py.Proto :=
  Rfc7906.aa_keyPurpose__2.set "attrType" (.obj Rfc7906.id_kma_keyUse)

/-- rfc7906.py:407 `aa_keyPurpose['attrValues'][0] = ...` -/
def aa_keyPurpose : Py.Proto :=
  Rfc7906.aa_keyPurpose__3.set "attrValues" (.elem0 Rfc7906.KeyUse.call)

/-- rfc7906.py:412 -/
def id_kma_transportKey : Py.Obj :=
  (Py.univ.ObjectIdentifier.call.callArcs [2, 16, 840, 1, 101, 2, 1, 13, 15])

/-- rfc7906.py:415-416 `class TransOp(univ.Enumerated)` -/
def TransOp__0 : Py.Obj :=
  Py.univ.Enumerated

/-- rfc7906.py:418-421 `TransOp.namedValues = ...` -/
def TransOp : Py.Obj :=
  Rfc7906.TransOp__0.setNamedValues (Py.NamedValues [("transport", 1), ("operational", 2)])

/-- rfc7906.py:424 -/
def aa_transportKey__0 : Py.Proto :=
  { obj := Rfc7906.Attribute.call }

/-- rfc7906.py:425 `aa_transportKey['attrType'] = ...` -/
def aa_transportKey__1 : Py.Proto :=
  Rfc7906.aa_transportKey__0.set "attrType" (.obj Rfc7906.id_kma_transportKey)

/-- rfc7906.py:426 `aa_transportKey['attrValues'][0] = ...` -/
def aa_transportKey : Py.Proto :=
  Rfc7906.aa_transportKey__1.set "attrValues" (.elem0 Rfc7906.TransOp.call)

/-- rfc7906.py:431 -/
def id_kma_keyDistPeriod : Py.Obj :=
  (Py.univ.ObjectIdentifier.call.callArcs [2, 16, 840, 1, 101, 2, 1, 13, 5])

/-- rfc7906.py:434-435 `class KeyDistPeriod(univ.Sequence)` -/
def KeyDistPeriod__0 : Py.Obj :=
  Py.univ.Sequence

/-- rfc7906.py:437-441 `KeyDistPeriod.componentType = ...` -/
def KeyDistPeriod : Py.Obj :=
  Rfc7906.KeyDistPeriod__0.setComponentType (Py.NamedTypes [
    Py.OptionalNamedType "doNotDistBefore" (Rfc7906.BinaryTime.call.implicitTag (Py.Tag .context false 0)),
    Py.NamedType "doNotDistAfter" Rfc7906.BinaryTime.call])

/-- rfc7906.py:444 -/
def aa_keyDistributionPeriod__0 : Py.Proto :=
  { obj := Rfc7906.Attribute.call }

/-- rfc7906.py:445 `aa_keyDistributionPeriod['attrType'] = ...` -/
def aa_keyDistributionPeriod__1 : Py.Proto :=
  Rfc7906.aa_keyDistributionPeriod__0.set "attrType" (.obj Rfc7906.id_kma_keyDistPeriod)

/-- rfc7906.py:446 `aa_keyDistributionPeriod['attrValues'][0] = ...` -/
def aa_keyDistributionPeriod : Py.Proto :=
  Rfc7906.aa_keyDistributionPeriod__1.set "attrValues" (.elem0 Rfc7906.KeyDistPeriod.call)

/-- rfc7906.py:451 -/
def id_kma_keyValidityPeriod : Py.Obj :=
  (Py.univ.ObjectIdentifier.call.callArcs [2, 16, 840, 1, 101, 2, 1, 13, 6])

/-- rfc7906.py:454-455 `class KeyValidityPeriod(univ.Sequence)` -/
def KeyValidityPeriod__0 : Py.Obj :=
  Py.univ.Sequence

/-- rfc7906.py:457-460 `KeyValidityPeriod.componentType = ...` -/
def KeyValidityPeriod : Py.Obj :=
  Rfc7906.KeyValidityPeriod__0.setComponentType (Py.NamedTypes [
    Py.NamedType "doNotUseBefore" Rfc7906.BinaryTime.call,
    Py.OptionalNamedType "doNotUseAfter" Rfc7906.BinaryTime.call])

/-- rfc7906.py:463 -/
def aa_keyValidityPeriod__0 : Py.Proto :=
  { obj := Rfc7906.Attribute.call }

/-- rfc7906.py:464 `aa_keyValidityPeriod['attrType'] = ...` -/
def aa_keyValidityPeriod__1 : Py.Proto :=
  Rfc7906.aa_keyValidityPeriod__0.set "attrType" (.obj Rfc7906.id_kma_keyValidityPeriod)

/-- rfc7906.py:465 `aa_keyValidityPeriod['attrValues'][0] = ...` -/
def aa_keyValidityPeriod : Py.Proto :=
  Rfc7906.aa_keyValidityPeriod__1.set "attrValues" (.elem0 Rfc7906.KeyValidityPeriod.call)

/-- rfc7906.py:470 -/
def id_kma_keyDuration : Py.Obj :=
  (Py.univ.ObjectIdentifier.call.callArcs [2, 16, 840, 1, 101, 2, 1, 13, 7])

/-- rfc7906.py:473 -/
def ub_KeyDuration_months : Py.Obj :=
  (Py.univ.Integer.call.callInt 72)

/-- rfc7906.py:475 -/
def ub_KeyDuration_hours : Py.Obj :=
  (Py.univ.Integer.call.callInt 96)

/-- rfc7906.py:477 -/
def ub_KeyDuration_days : Py.Obj :=
  (Py.univ.Integer.call.callInt 732)

/-- rfc7906.py:479 -/
def ub_KeyDuration_weeks : Py.Obj :=
  (Py.univ.Integer.call.callInt 104)

/-- rfc7906.py:481 -/
def ub_KeyDuration_years : Py.Obj :=
  (Py.univ.Integer.call.callInt 100)

/-- rfc7906.py:484-485 `class KeyDuration(univ.Choice)` -/
def KeyDuration__0 : Py.Obj :=
  Py.univ.Choice

/-- rfc7906.py:487-502 `KeyDuration.componentType = ...` -/
def KeyDuration : Py.Obj :=
  Rfc7906.KeyDuration__0.setComponentType (Py.NamedTypes [
    Py.NamedType "hours" ((Py.univ.Integer.call.addSubtypeSpec (Py.ValueRangeConstraint (.fin 1) Rfc7906.ub_KeyDuration_hours.bound)).implicitTag (Py.Tag .context false 0)),
    Py.NamedType "days" (Py.univ.Integer.call.addSubtypeSpec (Py.ValueRangeConstraint (.fin 1) Rfc7906.ub_KeyDuration_days.bound)),
    Py.NamedType "weeks" ((Py.univ.Integer.call.addSubtypeSpec (Py.ValueRangeConstraint (.fin 1) Rfc7906.ub_KeyDuration_weeks.bound)).implicitTag (Py.Tag .context false 1)),
    Py.NamedType "months" ((Py.univ.Integer.call.addSubtypeSpec (Py.ValueRangeConstraint (.fin 1) Rfc7906.ub_KeyDuration_months.bound)).implicitTag (Py.Tag .context false 2)),
    Py.NamedType "years" ((Py.univ.Integer.call.addSubtypeSpec (Py.ValueRangeConstraint (.fin 1) Rfc7906.ub_KeyDuration_years.bound)).implicitTag (Py.Tag .context false 3))])

/-- rfc7906.py:505 -/
def aa_keyDurationPeriod__0 : Py.Proto :=
  { obj := Rfc7906.Attribute.call }

/-- rfc7906.py:506 `aa_keyDurationPeriod['attrType'] = ...` -/
def aa_keyDurationPeriod__1 : Py.Proto :=
  Rfc7906.aa_keyDurationPeriod__0.set "attrType" (.obj Rfc7906.id_kma_keyDuration)

/-- rfc7906.py:507 `aa_keyDurationPeriod['attrValues'][0] = ...` -/
def aa_keyDurationPeriod : Py.Proto :=
  Rfc7906.aa_keyDurationPeriod__1.set "attrValues" (.elem0 Rfc7906.KeyDuration.call)

/-- rfc7906.py:512 -/
def id_aa_KP_classification : Py.Obj :=
  (Py.univ.ObjectIdentifier.call.callObj Rfc7906.id_aa_securityLabel)

/-- rfc7906.py:515 -/
def id_enumeratedPermissiveAttributes : Py.Obj :=
  (Py.univ.ObjectIdentifier.call.callArcs [2, 16, 840, 1, 101, 2, 1, 8, 3, 1])

/-- rfc7906.py:517 -/
def id_enumeratedRestrictiveAttributes : Py.Obj :=
  (Py.univ.ObjectIdentifier.call.callArcs [2, 16, 840, 1, 101, 2, 1, 8, 3, 4])

/-- rfc7906.py:519 -/
def id_informativeAttributes : Py.Obj :=
  (Py.univ.ObjectIdentifier.call.callArcs [2, 16, 840, 1, 101, 2, 1, 8, 3, 3])

/-- rfc7906.py:522-523 `class SecurityAttribute(univ.Integer)` -/
def SecurityAttribute__0 : Py.Obj :=
  Py.univ.Integer

/-- rfc7906.py:525 `SecurityAttribute.subtypeSpec = ...` -/
def SecurityAttribute : Py.Obj :=
  Rfc7906.SecurityAttribute__0.setSubtypeSpec (Py.ValueRangeConstraint (.fin 0) Rfc7906.MAX)

/-- rfc7906.py:528-529 `class EnumeratedTag(univ.Sequence)` -/
def EnumeratedTag__0 : Py.Obj :=
  Py.univ.Sequence

/-- rfc7906.py:531-534 `EnumeratedTag.componentType = ...` -/
def EnumeratedTag : Py.Obj :=
  Rfc7906.EnumeratedTag__0.setComponentType (Py.NamedTypes [
    Py.NamedType "tagName" Py.univ.ObjectIdentifier.call,
    Py.NamedType "attributeList" (Py.univ.SetOf.call.setComponentTypeOf Rfc7906.SecurityAttribute.call)])

/-- rfc7906.py:537-538 `class FreeFormField(univ.Choice)` -/
def FreeFormField__0 : Py.Obj :=
  Py.univ.Choice

/-- rfc7906.py:540-543 `FreeFormField.componentType = ...` -/
def FreeFormField : Py.Obj :=
  Rfc7906.FreeFormField__0.setComponentType (Py.NamedTypes [
    Py.NamedType "bitSetAttributes" Py.univ.BitString.call,
    Py.NamedType "securityAttributes" (Py.univ.SetOf.call.setComponentTypeOf Rfc7906.SecurityAttribute.call)])

/-- rfc7906.py:546-547 `class InformativeTag(univ.Sequence)` -/
def InformativeTag__0 : Py.Obj :=
  Py.univ.Sequence

/-- rfc7906.py:549-552 `InformativeTag.componentType = ...` -/
def InformativeTag : Py.Obj :=
  Rfc7906.InformativeTag__0.setComponentType (Py.NamedTypes [
    Py.NamedType "tagName" Py.univ.ObjectIdentifier.call,
    Py.NamedType "attributes" Rfc7906.FreeFormField.call])

/-- rfc7906.py:555-556 `class Classification(ESSSecurityLabel)` -/
def Classification : Py.Obj :=
  Rfc7906.ESSSecurityLabel

/-- rfc7906.py:559 -/
def aa_classification__0 : Py.Proto :=
  { obj := Rfc7906.Attribute.call }

/-- rfc7906.py:560 `aa_classification['attrType'] = ...` -/
def aa_classification__1 : Py.Proto :=
  Rfc7906.aa_classification__0.set "attrType" (.obj Rfc7906.id_aa_KP_classification)

/-- rfc7906.py:561 `aa_classification['attrValues'][0] = ...` -/
def aa_classification : Py.Proto :=
  Rfc7906.aa_classification__1.set "attrValues" (.elem0 Rfc7906.Classification.call)

/-- rfc7906.py:566 -/
def id_kma_splitID : Py.Obj :=
  (Py.univ.ObjectIdentifier.call.callArcs [2, 16, 840, 1, 101, 2, 1, 13, 11])

/-- rfc7906.py:569-570 `class SplitID(univ.Sequence)` -/
def SplitID__0 : Py.Obj :=
  Py.univ.Sequence

/-- rfc7906.py:572-576 `SplitID.componentType = ...` -/
def SplitID : Py.Obj :=
  Rfc7906.SplitID__0.setComponentType (Py.NamedTypes [
    Py.NamedType "half" (Py.univ.Enumerated.call.setNamedValues (Py.NamedValues [("a", 0), ("b", 1)])),
    Py.OptionalNamedType "combineAlg" Rfc7906.AlgorithmIdentifier.call])

/-- rfc7906.py:579 -/
def aa_splitIdentifier__0 : Py.Proto :=
  { obj := Rfc7906.Attribute.call }

/-- rfc7906.py:580 `aa_splitIdentifier['attrType'] = ...` -/
def aa_splitIdentifier__1 : Py.Proto :=
  Rfc7906.aa_splitIdentifier__0.set "attrType" (.obj Rfc7906.id_kma_splitID)

/-- rfc7906.py:581 `aa_splitIdentifier['attrValues'][0] = ...` -/
def aa_splitIdentifier : Py.Proto :=
  Rfc7906.aa_splitIdentifier__1.set "attrValues" (.elem0 Rfc7906.SplitID.call)

/-- rfc7906.py:586 -/
def id_kma_keyPkgType : Py.Obj :=
  (Py.univ.ObjectIdentifier.call.callArcs [2, 16, 840, 1, 101, 2, 1, 13, 12])

/-- rfc7906.py:589-590 `class KeyPkgType(univ.ObjectIdentifier)` -/
def KeyPkgType : Py.Obj :=
  Py.univ.ObjectIdentifier

/-- rfc7906.py:593 -/
def aa_keyPackageType__0 : Py.Proto :=
  { obj := Rfc7906.Attribute.call }

/-- rfc7906.py:594 `aa_keyPackageType['attrType'] = ...` -/
def aa_keyPackageType__1 : Py.Proto :=
  Rfc7906.aa_keyPackageType__0.set "attrType" (.obj Rfc7906.id_kma_keyPkgType)

/-- rfc7906.py:595 `aa_keyPackageType['attrValues'][0] = ...` -/
def aa_keyPackageType : Py.Proto :=
  Rfc7906.aa_keyPackageType__1.set "attrValues" (.elem0 Rfc7906.KeyPkgType.call)

/-- rfc7906.py:600 -/
def id_kma_sigUsageV3 : Py.Obj :=
  (Py.univ.ObjectIdentifier.call.callArcs [2, 16, 840, 1, 101, 2, 1, 13, 22])

/-- rfc7906.py:603-604 `class SignatureUsage(CMSContentConstraints)` -/
def SignatureUsage : Py.Obj :=
  Rfc7906.CMSContentConstraints

/-- rfc7906.py:607 -/
def aa_signatureUsage_v3__0 : Py.Proto :=
  { obj := Rfc7906.Attribute.call }

/-- rfc7906.py:608 `aa_signatureUsage_v3['attrType'] = ...` -/
def aa_signatureUsage_v3__1 : Py.Proto :=
  Rfc7906.aa_signatureUsage_v3__0.set "attrType" (.obj Rfc7906.id_kma_sigUsageV3)

/-- rfc7906.py:609 `aa_signatureUsage_v3['attrValues'][0] = ...` -/
def aa_signatureUsage_v3__2 : Py.Proto :=
  Rfc7906.aa_signatureUsage_v3__1.set "attrValues" (.elem0 Rfc7906.SignatureUsage.call)

/-- rfc7906.py:614 -/
def id_kma_otherCertFormats : Py.Obj :=
  (Py.univ.ObjectIdentifier.call.callArcs [2, 16, 840, 1, 101, 2, 1, 13, 19])

/-- rfc7906.py:617 -/
def aa_otherCertificateFormats : Py.Obj :=
  Rfc7906.Attribute.call

/-- rfc7906.py:618 `aa_signatureUsage_v3['attrType'] = ...` -/
def aa_signatureUsage_v3__3 : Py.Proto :=
  Rfc7906.aa_signatureUsage_v3__2.set "attrType" (.obj Rfc7906.id_kma_otherCertFormats)

/-- rfc7906.py:619 `aa_signatureUsage_v3['attrValues'][0] = ...` -/
def aa_signatureUsage_v3 : Py.Proto :=
  Rfc7906.aa_signatureUsage_v3__3.set "attrValues" (.elem0 Rfc7906.CertificateChoices.call)

/-- rfc7906.py:624 -/
def id_at_pkiPath : Py.Obj :=
  (Py.univ.ObjectIdentifier.call.callArcs [2, 5, 4, 70])

/-- rfc7906.py:627-628 `class PkiPath(univ.SequenceOf)` -/
def PkiPath__0 : Py.Obj :=
  Py.univ.SequenceOf

/-- rfc7906.py:630 `PkiPath.componentType = ...` -/
def PkiPath__1 : Py.Obj :=
  Rfc7906.PkiPath__0.setComponentTypeOf Rfc7906.Certificate.call

/-- rfc7906.py:631 `PkiPath.subtypeSpec = ...` -/
def PkiPath : Py.Obj :=
  Rfc7906.PkiPath__1.setSubtypeSpec (Py.ValueSizeConstraint (.fin 1) Rfc7906.MAX)

/-- rfc7906.py:634 -/
def aa_pkiPath__0 : Py.Proto :=
  { obj := Rfc7906.Attribute.call }

/-- rfc7906.py:635 `aa_pkiPath['attrType'] = ...` -/
def aa_pkiPath__1 : Py.Proto :=
  Rfc7906.aa_pkiPath__0.set "attrType" (.obj Rfc7906.id_at_pkiPath)

/-- rfc7906.py:636 `aa_pkiPath['attrValues'][0] = ...` -/
def aa_pkiPath : Py.Proto :=
  Rfc7906.aa_pkiPath__1.set "attrValues" (.elem0 Rfc7906.PkiPath.call)

/-- rfc7906.py:641 -/
def id_kma_usefulCerts : Py.Obj :=
  (Py.univ.ObjectIdentifier.call.callArcs [2, 16, 840, 1, 101, 2, 1, 13, 20])

/-- rfc7906.py:644 -/
def aa_usefulCertificates__0 : Py.Proto :=
  { obj := Rfc7906.Attribute.call }

/-- rfc7906.py:645 `aa_usefulCertificates['attrType'] = ...` -/
def aa_usefulCertificates__1 : Py.Proto :=
  Rfc7906.aa_usefulCertificates__0.set "attrType" (.obj Rfc7906.id_kma_usefulCerts)

/-- rfc7906.py:646 `aa_usefulCertificates['attrValues'][0] = ...` -/
def aa_usefulCertificates : Py.Proto :=
  Rfc7906.aa_usefulCertificates__1.set "attrValues" (.elem0 Rfc7906.CertificateSet.call)

/-- rfc7906.py:651 -/
def id_kma_keyWrapAlgorithm : Py.Obj :=
  (Py.univ.ObjectIdentifier.call.callArcs [2, 16, 840, 1, 101, 2, 1, 13, 21])

/-- rfc7906.py:654 -/
def aa_keyWrapAlgorithm__0 : Py.Proto :=
  { obj := Rfc7906.Attribute.call }

/-- rfc7906.py:655 `aa_keyWrapAlgorithm['attrType'] = ...` -/
def aa_keyWrapAlgorithm__1 : Py.Proto :=
  Rfc7906.aa_keyWrapAlgorithm__0.set "attrType" (.obj Rfc7906.id_kma_keyWrapAlgorithm)

/-- rfc7906.py:656 `aa_keyWrapAlgorithm['attrValues'][0] = ...` -/
def aa_keyWrapAlgorithm : Py.Proto :=
  Rfc7906.aa_keyWrapAlgorithm__1.set "attrValues" (.elem0 Rfc7906.AlgorithmIdentifier.call)

/-- rfc7906.py:661 -/
def id_aa_KP_contentDecryptKeyID : Py.Obj :=
  (Py.univ.ObjectIdentifier.call.callArcs [2, 16, 840, 1, 101, 2, 1, 5, 66])

/-- rfc7906.py:664-665 `class ContentDecryptKeyID(univ.OctetString)` -/
def ContentDecryptKeyID : Py.Obj :=
  Py.univ.OctetString

/-- rfc7906.py:668 -/
def aa_contentDecryptKeyIdentifier__0 : Py.Proto :=
  { obj := Rfc7906.Attribute.call }

/-- rfc7906.py:669 `aa_contentDecryptKeyIdentifier['attrType'] = ...` -/
def aa_contentDecryptKeyIdentifier__1 : Py.Proto :=
  Rfc7906.aa_contentDecryptKeyIdentifier__0.set "attrType" (.obj Rfc7906.id_aa_KP_contentDecryptKeyID)

/-- rfc7906.py:670 `aa_contentDecryptKeyIdentifier['attrValues'][0] = ...` -/
def aa_contentDecryptKeyIdentifier : Py.Proto :=
  Rfc7906.aa_contentDecryptKeyIdentifier__1.set "attrValues" (.elem0 Rfc7906.ContentDecryptKeyID.call)

/-- rfc7906.py:675 -/
def aa_certificatePointers__0 : Py.Proto :=
  { obj := Rfc7906.Attribute.call }

/-- rfc7906.py:676 `aa_certificatePointers['attrType'] = ...` -/
def aa_certificatePointers__1 : Py.Proto :=
  Rfc7906.aa_certificatePointers__0.set "attrType" (.obj Rfc7906.id_pe_subjectInfoAccess)

/-- rfc7906.py:677 `aa_certificatePointers['attrValues'][0] = ...` -/
def aa_certificatePointers : Py.Proto :=
  Rfc7906.aa_certificatePointers__1.set "attrValues" (.elem0 Rfc7906.SubjectInfoAccessSyntax.call)

/-- rfc7906.py:682 -/
def id_aa_KP_crlPointers : Py.Obj :=
  (Py.univ.ObjectIdentifier.call.callArcs [2, 16, 840, 1, 101, 2, 1, 5, 70])

/-- rfc7906.py:685 -/
def aa_cRLDistributionPoints__0 : Py.Proto :=
  { obj := Rfc7906.Attribute.call }

/-- rfc7906.py:686 `aa_cRLDistributionPoints['attrType'] = ...` -/
def aa_cRLDistributionPoints__1 : Py.Proto :=
  Rfc7906.aa_cRLDistributionPoints__0.set "attrType" (.obj Rfc7906.id_aa_KP_crlPointers)

/-- rfc7906.py:687 `aa_cRLDistributionPoints['attrValues'][0] = ...` -/
def aa_cRLDistributionPoints : Py.Proto :=
  Rfc7906.aa_cRLDistributionPoints__1.set "attrValues" (.elem0 Rfc7906.GeneralNames.call)

/-- rfc7906.py:692 -/
def id_errorCodes : Py.Obj :=
  (Py.univ.ObjectIdentifier.call.callArcs [2, 16, 840, 1, 101, 2, 1, 22])

/-- rfc7906.py:694 -/
def id_missingKeyType : Py.Obj :=
  (Py.univ.ObjectIdentifier.call.callArcs [2, 16, 840, 1, 101, 2, 1, 22, 1])

/-- rfc7906.py:696 -/
def id_privacyMarkTooLong : Py.Obj :=
  (Py.univ.ObjectIdentifier.call.callArcs [2, 16, 840, 1, 101, 2, 1, 22, 2])

/-- rfc7906.py:698 -/
def id_unrecognizedSecurityPolicy : Py.Obj :=
  (Py.univ.ObjectIdentifier.call.callArcs [2, 16, 840, 1, 101, 2, 1, 22, 3])

/-- rfc7906.py:704-734 -/
def _cmsAttributesMapUpdate : Py.Entries :=
  [(Rfc7906.id_aa_contentHint.value, Rfc7906.ContentHints.call.ty),
    (Rfc7906.id_aa_communityIdentifiers.value, Rfc7906.CommunityIdentifiers.call.ty),
    (Rfc7906.id_aa_binarySigningTime.value, Rfc7906.BinarySigningTime.call.ty),
    (Rfc7906.id_contentType.value, Rfc7906.ContentType.call.ty),
    (Rfc7906.id_messageDigest.value, Rfc7906.MessageDigest.call.ty),
    (Rfc7906.id_aa_KP_keyPkgIdAndReceiptReq.value, Rfc7906.KeyPkgIdentifierAndReceiptReq.call.ty),
    (Rfc7906.id_aa_KP_keyProvinceV2.value, Rfc7906.KeyProvinceV2.call.ty),
    (Rfc7906.id_aa_KP_manifest.value, Rfc7906.Manifest.call.ty),
    (Rfc7906.id_kma_keyAlgorithm.value, Rfc7906.KeyAlgorithm.call.ty),
    (Rfc7906.id_at_userCertificate.value, Rfc7906.Certificate.call.ty),
    (Rfc7906.id_kma_keyPkgReceiversV2.value, Rfc7906.KeyPkgReceiversV2.call.ty),
    (Rfc7906.id_kma_TSECNomenclature.value, Rfc7906.TSECNomenclature.call.ty),
    (Rfc7906.id_kma_keyPurpose.value, Rfc7906.KeyPurpose.call.ty),
    (Rfc7906.id_kma_keyUse.value, Rfc7906.KeyUse.call.ty),
    (Rfc7906.id_kma_transportKey.value, Rfc7906.TransOp.call.ty),
    (Rfc7906.id_kma_keyDistPeriod.value, Rfc7906.KeyDistPeriod.call.ty),
    (Rfc7906.id_kma_keyValidityPeriod.value, Rfc7906.KeyValidityPeriod.call.ty),
    (Rfc7906.id_kma_keyDuration.value, Rfc7906.KeyDuration.call.ty),
    (Rfc7906.id_aa_KP_classification.value, Rfc7906.Classification.call.ty),
    (Rfc7906.id_kma_splitID.value, Rfc7906.SplitID.call.ty),
    (Rfc7906.id_kma_keyPkgType.value, Rfc7906.KeyPkgType.call.ty),
    (Rfc7906.id_kma_sigUsageV3.value, Rfc7906.SignatureUsage.call.ty),
    (Rfc7906.id_kma_otherCertFormats.value, Rfc7906.CertificateChoices.call.ty),
    (Rfc7906.id_at_pkiPath.value, Rfc7906.PkiPath.call.ty),
    (Rfc7906.id_kma_usefulCerts.value, Rfc7906.CertificateSet.call.ty),
    (Rfc7906.id_kma_keyWrapAlgorithm.value, Rfc7906.AlgorithmIdentifier.call.ty),
    (Rfc7906.id_aa_KP_contentDecryptKeyID.value, Rfc7906.ContentDecryptKeyID.call.ty),
    (Rfc7906.id_pe_subjectInfoAccess.value, Rfc7906.SubjectInfoAccessSyntax.call.ty),
    (Rfc7906.id_aa_KP_crlPointers.value, Rfc7906.GeneralNames.call.ty)]

/-- Modules of this package imported by rfc7906.py, in textual order. -/
def imports : List Py.Ident :=
  [(Py.mod 17 "rfc2634"), (Py.mod 55 "rfc4108"), (Py.mod 15 "rfc5280"), (Py.mod 16 "rfc5652"), (Py.mod 85 "rfc6010"), (Py.mod 86 "rfc6019"), (Py.mod 100 "rfc7191")]

/-- Dictionary operations executed when rfc7906.py is imported, in program order. -/
def effects : List Py.Effect :=
  [.create (Py.map 132 "rfc7906._cmsAttributesMapUpdate") Rfc7906._cmsAttributesMapUpdate /- rfc7906.py:704-734 -/,
   .update (Py.map 8 "rfc5652.cmsAttributesMap") Rfc7906._cmsAttributesMapUpdate /- rfc7906.py:736 -/]

/-- ASN.1 types rfc7906.py binds at module level (final version of each name), plus nested classes. -/
def classes : List (String × Py.Obj) :=
  [("rfc7906.ContentHints", Rfc7906.ContentHints),
   ("rfc7906.SecurityPolicyIdentifier", Rfc7906.SecurityPolicyIdentifier),
   ("rfc7906.SecurityClassification", Rfc7906.SecurityClassification),
   ("rfc7906.ESSPrivacyMark", Rfc7906.ESSPrivacyMark),
   ("rfc7906.SecurityCategories", Rfc7906.SecurityCategories),
   ("rfc7906.ESSSecurityLabel", Rfc7906.ESSSecurityLabel),
   ("rfc7906.CommunityIdentifier", Rfc7906.CommunityIdentifier),
   ("rfc7906.CommunityIdentifiers", Rfc7906.CommunityIdentifiers),
   ("rfc7906.AlgorithmIdentifier", Rfc7906.AlgorithmIdentifier),
   ("rfc7906.Name", Rfc7906.Name),
   ("rfc7906.Certificate", Rfc7906.Certificate),
   ("rfc7906.GeneralNames", Rfc7906.GeneralNames),
   ("rfc7906.GeneralName", Rfc7906.GeneralName),
   ("rfc7906.SubjectInfoAccessSyntax", Rfc7906.SubjectInfoAccessSyntax),
   ("rfc7906.CMSContentConstraints", Rfc7906.CMSContentConstraints),
   ("rfc7906.BinaryTime", Rfc7906.BinaryTime),
   ("rfc7906.BinarySigningTime", Rfc7906.BinarySigningTime),
   ("rfc7906.Attribute", Rfc7906.Attribute),
   ("rfc7906.CertificateSet", Rfc7906.CertificateSet),
   ("rfc7906.CertificateChoices", Rfc7906.CertificateChoices),
   ("rfc7906.ContentType", Rfc7906.ContentType),
   ("rfc7906.MessageDigest", Rfc7906.MessageDigest),
   ("rfc7906.SIREntityName", Rfc7906.SIREntityName),
   ("rfc7906.KeyPkgIdentifierAndReceiptReq", Rfc7906.KeyPkgIdentifierAndReceiptReq),
   ("rfc7906.KeyProvinceV2", Rfc7906.KeyProvinceV2),
   ("rfc7906.ShortTitle", Rfc7906.ShortTitle),
   ("rfc7906.Manifest", Rfc7906.Manifest),
   ("rfc7906.KeyAlgorithm", Rfc7906.KeyAlgorithm),
   ("rfc7906.KeyPkgReceiver", Rfc7906.KeyPkgReceiver),
   ("rfc7906.KeyPkgReceiversV2", Rfc7906.KeyPkgReceiversV2),
   ("rfc7906.CharEdition", Rfc7906.CharEdition),
   ("rfc7906.CharEditionRange", Rfc7906.CharEditionRange),
   ("rfc7906.NumEdition", Rfc7906.NumEdition),
   ("rfc7906.NumEditionRange", Rfc7906.NumEditionRange),
   ("rfc7906.EditionID", Rfc7906.EditionID),
   ("rfc7906.Register", Rfc7906.Register),
   ("rfc7906.RegisterRange", Rfc7906.RegisterRange),
   ("rfc7906.RegisterID", Rfc7906.RegisterID),
   ("rfc7906.SegmentNumber", Rfc7906.SegmentNumber),
   ("rfc7906.SegmentRange", Rfc7906.SegmentRange),
   ("rfc7906.SegmentID", Rfc7906.SegmentID),
   ("rfc7906.TSECNomenclature", Rfc7906.TSECNomenclature),
   ("rfc7906.KeyPurpose", Rfc7906.KeyPurpose),
   ("rfc7906.KeyUse", Rfc7906.KeyUse),
   ("rfc7906.TransOp", Rfc7906.TransOp),
   ("rfc7906.KeyDistPeriod", Rfc7906.KeyDistPeriod),
   ("rfc7906.KeyValidityPeriod", Rfc7906.KeyValidityPeriod),
   ("rfc7906.KeyDuration", Rfc7906.KeyDuration),
   ("rfc7906.SecurityAttribute", Rfc7906.SecurityAttribute),
   ("rfc7906.EnumeratedTag", Rfc7906.EnumeratedTag),
   ("rfc7906.FreeFormField", Rfc7906.FreeFormField),
   ("rfc7906.InformativeTag", Rfc7906.InformativeTag),
   ("rfc7906.Classification", Rfc7906.Classification),
   ("rfc7906.SplitID", Rfc7906.SplitID),
   ("rfc7906.KeyPkgType", Rfc7906.KeyPkgType),
   ("rfc7906.SignatureUsage", Rfc7906.SignatureUsage),
   ("rfc7906.PkiPath", Rfc7906.PkiPath),
   ("rfc7906.ContentDecryptKeyID", Rfc7906.ContentDecryptKeyID)]

/-- pyasn1 instances rfc7906.py binds at module level. -/
def objects : List (String × Py.Obj) :=
  [("rfc7906.id_aa_contentHint", Rfc7906.id_aa_contentHint),
   ("rfc7906.id_aa_securityLabel", Rfc7906.id_aa_securityLabel),
   ("rfc7906.id_aa_communityIdentifiers", Rfc7906.id_aa_communityIdentifiers),
   ("rfc7906.id_pkix", Rfc7906.id_pkix),
   ("rfc7906.id_pe", Rfc7906.id_pe),
   ("rfc7906.id_pe_subjectInfoAccess", Rfc7906.id_pe_subjectInfoAccess),
   ("rfc7906.id_aa_binarySigningTime", Rfc7906.id_aa_binarySigningTime),
   ("rfc7906.id_contentType", Rfc7906.id_contentType),
   ("rfc7906.id_messageDigest", Rfc7906.id_messageDigest),
   ("rfc7906.id_aa_KP_keyPkgIdAndReceiptReq", Rfc7906.id_aa_KP_keyPkgIdAndReceiptReq),
   ("rfc7906.id_aa_KP_keyProvinceV2", Rfc7906.id_aa_KP_keyProvinceV2),
   ("rfc7906.id_aa_KP_manifest", Rfc7906.id_aa_KP_manifest),
   ("rfc7906.id_kma_keyAlgorithm", Rfc7906.id_kma_keyAlgorithm),
   ("rfc7906.id_at_userCertificate", Rfc7906.id_at_userCertificate),
   ("rfc7906.id_kma_keyPkgReceiversV2", Rfc7906.id_kma_keyPkgReceiversV2),
   ("rfc7906.id_kma_TSECNomenclature", Rfc7906.id_kma_TSECNomenclature),
   ("rfc7906.id_kma_keyPurpose", Rfc7906.id_kma_keyPurpose),
   ("rfc7906.id_kma_keyUse", Rfc7906.id_kma_keyUse),
   ("rfc7906.aa_keyUse", Rfc7906.aa_keyUse),
   ("rfc7906.id_kma_transportKey", Rfc7906.id_kma_transportKey),
   ("rfc7906.id_kma_keyDistPeriod", Rfc7906.id_kma_keyDistPeriod),
   ("rfc7906.id_kma_keyValidityPeriod", Rfc7906.id_kma_keyValidityPeriod),
   ("rfc7906.id_kma_keyDuration", Rfc7906.id_kma_keyDuration),
   ("rfc7906.ub_KeyDuration_months", Rfc7906.ub_KeyDuration_months),
   ("rfc7906.ub_KeyDuration_hours", Rfc7906.ub_KeyDuration_hours),
   ("rfc7906.ub_KeyDuration_days", Rfc7906.ub_KeyDuration_days),
   ("rfc7906.ub_KeyDuration_weeks", Rfc7906.ub_KeyDuration_weeks),
   ("rfc7906.ub_KeyDuration_years", Rfc7906.ub_KeyDuration_years),
   ("rfc7906.id_aa_KP_classification", Rfc7906.id_aa_KP_classification),
   ("rfc7906.id_enumeratedPermissiveAttributes", Rfc7906.id_enumeratedPermissiveAttributes),
   ("rfc7906.id_enumeratedRestrictiveAttributes", Rfc7906.id_enumeratedRestrictiveAttributes),
   ("rfc7906.id_informativeAttributes", Rfc7906.id_informativeAttributes),
   ("rfc7906.id_kma_splitID", Rfc7906.id_kma_splitID),
   ("rfc7906.id_kma_keyPkgType", Rfc7906.id_kma_keyPkgType),
   ("rfc7906.id_kma_sigUsageV3", Rfc7906.id_kma_sigUsageV3),
   ("rfc7906.id_kma_otherCertFormats", Rfc7906.id_kma_otherCertFormats),
   ("rfc7906.aa_otherCertificateFormats", Rfc7906.aa_otherCertificateFormats),
   ("rfc7906.id_at_pkiPath", Rfc7906.id_at_pkiPath),
   ("rfc7906.id_kma_usefulCerts", Rfc7906.id_kma_usefulCerts),
   ("rfc7906.id_kma_keyWrapAlgorithm", Rfc7906.id_kma_keyWrapAlgorithm),
   ("rfc7906.id_aa_KP_contentDecryptKeyID", Rfc7906.id_aa_KP_contentDecryptKeyID),
   ("rfc7906.id_aa_KP_crlPointers", Rfc7906.id_aa_KP_crlPointers),
   ("rfc7906.id_errorCodes", Rfc7906.id_errorCodes),
   ("rfc7906.id_missingKeyType", Rfc7906.id_missingKeyType),
   ("rfc7906.id_privacyMarkTooLong", Rfc7906.id_privacyMarkTooLong),
   ("rfc7906.id_unrecognizedSecurityPolicy", Rfc7906.id_unrecognizedSecurityPolicy)]

/-- pyasn1 instances rfc7906.py fills in by item assignment. -/
def protos : List (String × Py.Proto) :=
  [("rfc7906.aa_keyProvince_v2", Rfc7906.aa_keyProvince_v2),
   ("rfc7906.aa_manifest", Rfc7906.aa_manifest),
   ("rfc7906.aa_keyAlgorithm", Rfc7906.aa_keyAlgorithm),
   ("rfc7906.aa_userCertificate", Rfc7906.aa_userCertificate),
   ("rfc7906.aa_keyPackageReceivers_v2", Rfc7906.aa_keyPackageReceivers_v2),
   ("rfc7906.aa_tsecNomenclature", Rfc7906.aa_tsecNomenclature),
   ("rfc7906.aa_keyPurpose", Rfc7906.aa_keyPurpose),
   ("rfc7906.aa_transportKey", Rfc7906.aa_transportKey),
   ("rfc7906.aa_keyDistributionPeriod", Rfc7906.aa_keyDistributionPeriod),
   ("rfc7906.aa_keyValidityPeriod", Rfc7906.aa_keyValidityPeriod),
   ("rfc7906.aa_keyDurationPeriod", Rfc7906.aa_keyDurationPeriod),
   ("rfc7906.aa_classification", Rfc7906.aa_classification),
   ("rfc7906.aa_splitIdentifier", Rfc7906.aa_splitIdentifier),
   ("rfc7906.aa_keyPackageType", Rfc7906.aa_keyPackageType),
   ("rfc7906.aa_signatureUsage_v3", Rfc7906.aa_signatureUsage_v3),
   ("rfc7906.aa_pkiPath", Rfc7906.aa_pkiPath),
   ("rfc7906.aa_usefulCertificates", Rfc7906.aa_usefulCertificates),
   ("rfc7906.aa_keyWrapAlgorithm", Rfc7906.aa_keyWrapAlgorithm),
   ("rfc7906.aa_contentDecryptKeyIdentifier", Rfc7906.aa_contentDecryptKeyIdentifier),
   ("rfc7906.aa_certificatePointers", Rfc7906.aa_certificatePointers),
   ("rfc7906.aa_cRLDistributionPoints", Rfc7906.aa_cRLDistributionPoints)]

/-- Every place of rfc7906.py that instantiates a class of the package: where, the class as it is
at that point, and the class as it is when the import has finished. -/
def snapshots : List Py.Snapshot :=
  [⟨"rfc7906.py:133", Rfc7906.Attribute, Rfc7906.Attribute⟩,
   ⟨"rfc7906.py:135", Rfc7906.KeyProvinceV2, Rfc7906.KeyProvinceV2⟩,
   ⟨"rfc7906.py:150", Rfc7906.ShortTitle, Rfc7906.ShortTitle⟩,
   ⟨"rfc7906.py:154", Rfc7906.Attribute, Rfc7906.Attribute⟩,
   ⟨"rfc7906.py:156", Rfc7906.Manifest, Rfc7906.Manifest⟩,
   ⟨"rfc7906.py:176", Rfc7906.Attribute, Rfc7906.Attribute⟩,
   ⟨"rfc7906.py:178", Rfc7906.KeyAlgorithm, Rfc7906.KeyAlgorithm⟩,
   ⟨"rfc7906.py:186", Rfc7906.Attribute, Rfc7906.Attribute⟩,
   ⟨"rfc7906.py:188", Rfc7906.Certificate, Rfc7906.Certificate⟩,
   ⟨"rfc7906.py:200", Rfc7906.SIREntityName, Rfc7906.SIREntityName⟩,
   ⟨"rfc7906.py:202", Rfc7906.CommunityIdentifier, Rfc7906.CommunityIdentifier⟩,
   ⟨"rfc7906.py:210", Rfc7906.KeyPkgReceiver, Rfc7906.KeyPkgReceiver⟩,
   ⟨"rfc7906.py:214", Rfc7906.Attribute, Rfc7906.Attribute⟩,
   ⟨"rfc7906.py:216", Rfc7906.KeyPkgReceiversV2, Rfc7906.KeyPkgReceiversV2⟩,
   ⟨"rfc7906.py:232", Rfc7906.CharEdition, Rfc7906.CharEdition⟩,
   ⟨"rfc7906.py:233", Rfc7906.CharEdition, Rfc7906.CharEdition⟩,
   ⟨"rfc7906.py:247", Rfc7906.NumEdition, Rfc7906.NumEdition⟩,
   ⟨"rfc7906.py:248", Rfc7906.NumEdition, Rfc7906.NumEdition⟩,
   ⟨"rfc7906.py:257", Rfc7906.CharEdition, Rfc7906.CharEdition⟩,
   ⟨"rfc7906.py:259", Rfc7906.CharEditionRange, Rfc7906.CharEditionRange⟩,
   ⟨"rfc7906.py:264", Rfc7906.NumEdition, Rfc7906.NumEdition⟩,
   ⟨"rfc7906.py:266", Rfc7906.NumEditionRange, Rfc7906.NumEditionRange⟩,
   ⟨"rfc7906.py:283", Rfc7906.Register, Rfc7906.Register⟩,
   ⟨"rfc7906.py:284", Rfc7906.Register, Rfc7906.Register⟩,
   ⟨"rfc7906.py:292", Rfc7906.Register, Rfc7906.Register⟩,
   ⟨"rfc7906.py:294", Rfc7906.RegisterRange, Rfc7906.RegisterRange⟩,
   ⟨"rfc7906.py:309", Rfc7906.SegmentNumber, Rfc7906.SegmentNumber⟩,
   ⟨"rfc7906.py:310", Rfc7906.SegmentNumber, Rfc7906.SegmentNumber⟩,
   ⟨"rfc7906.py:318", Rfc7906.SegmentNumber, Rfc7906.SegmentNumber⟩,
   ⟨"rfc7906.py:320", Rfc7906.SegmentRange, Rfc7906.SegmentRange⟩,
   ⟨"rfc7906.py:329", Rfc7906.ShortTitle, Rfc7906.ShortTitle⟩,
   ⟨"rfc7906.py:330", Rfc7906.EditionID, Rfc7906.EditionID⟩,
   ⟨"rfc7906.py:331", Rfc7906.RegisterID, Rfc7906.RegisterID⟩,
   ⟨"rfc7906.py:332", Rfc7906.SegmentID, Rfc7906.SegmentID⟩,
   ⟨"rfc7906.py:336", Rfc7906.Attribute, Rfc7906.Attribute⟩,
   ⟨"rfc7906.py:338", Rfc7906.TSECNomenclature, Rfc7906.TSECNomenclature⟩,
   ⟨"rfc7906.py:364", Rfc7906.Attribute, Rfc7906.Attribute⟩,
   ⟨"rfc7906.py:366", Rfc7906.KeyPurpose, Rfc7906.KeyPurpose⟩,
   ⟨"rfc7906.py:405", Rfc7906.Attribute, Rfc7906.Attribute⟩,
   ⟨"rfc7906.py:407", Rfc7906.KeyUse, Rfc7906.KeyUse⟩,
   ⟨"rfc7906.py:424", Rfc7906.Attribute, Rfc7906.Attribute⟩,
   ⟨"rfc7906.py:426", Rfc7906.TransOp, Rfc7906.TransOp⟩,
   ⟨"rfc7906.py:438", Rfc7906.BinaryTime, Rfc7906.BinaryTime⟩,
   ⟨"rfc7906.py:440", Rfc7906.BinaryTime, Rfc7906.BinaryTime⟩,
   ⟨"rfc7906.py:444", Rfc7906.Attribute, Rfc7906.Attribute⟩,
   ⟨"rfc7906.py:446", Rfc7906.KeyDistPeriod, Rfc7906.KeyDistPeriod⟩,
   ⟨"rfc7906.py:458", Rfc7906.BinaryTime, Rfc7906.BinaryTime⟩,
   ⟨"rfc7906.py:459", Rfc7906.BinaryTime, Rfc7906.BinaryTime⟩,
   ⟨"rfc7906.py:463", Rfc7906.Attribute, Rfc7906.Attribute⟩,
   ⟨"rfc7906.py:465", Rfc7906.KeyValidityPeriod, Rfc7906.KeyValidityPeriod⟩,
   ⟨"rfc7906.py:505", Rfc7906.Attribute, Rfc7906.Attribute⟩,
   ⟨"rfc7906.py:507", Rfc7906.KeyDuration, Rfc7906.KeyDuration⟩,
   ⟨"rfc7906.py:533", Rfc7906.SecurityAttribute, Rfc7906.SecurityAttribute⟩,
   ⟨"rfc7906.py:542", Rfc7906.SecurityAttribute, Rfc7906.SecurityAttribute⟩,
   ⟨"rfc7906.py:551", Rfc7906.FreeFormField, Rfc7906.FreeFormField⟩,
   ⟨"rfc7906.py:559", Rfc7906.Attribute, Rfc7906.Attribute⟩,
   ⟨"rfc7906.py:561", Rfc7906.Classification, Rfc7906.Classification⟩,
   ⟨"rfc7906.py:575", Rfc7906.AlgorithmIdentifier, Rfc7906.AlgorithmIdentifier⟩,
   ⟨"rfc7906.py:579", Rfc7906.Attribute, Rfc7906.Attribute⟩,
   ⟨"rfc7906.py:581", Rfc7906.SplitID, Rfc7906.SplitID⟩,
   ⟨"rfc7906.py:593", Rfc7906.Attribute, Rfc7906.Attribute⟩,
   ⟨"rfc7906.py:595", Rfc7906.KeyPkgType, Rfc7906.KeyPkgType⟩,
   ⟨"rfc7906.py:607", Rfc7906.Attribute, Rfc7906.Attribute⟩,
   ⟨"rfc7906.py:609", Rfc7906.SignatureUsage, Rfc7906.SignatureUsage⟩,
   ⟨"rfc7906.py:617", Rfc7906.Attribute, Rfc7906.Attribute⟩,
   ⟨"rfc7906.py:619", Rfc7906.CertificateChoices, Rfc7906.CertificateChoices⟩,
   ⟨"rfc7906.py:630", Rfc7906.Certificate, Rfc7906.Certificate⟩,
   ⟨"rfc7906.py:634", Rfc7906.Attribute, Rfc7906.Attribute⟩,
   ⟨"rfc7906.py:636", Rfc7906.PkiPath, Rfc7906.PkiPath⟩,
   ⟨"rfc7906.py:644", Rfc7906.Attribute, Rfc7906.Attribute⟩,
   ⟨"rfc7906.py:646", Rfc7906.CertificateSet, Rfc7906.CertificateSet⟩,
   ⟨"rfc7906.py:654", Rfc7906.Attribute, Rfc7906.Attribute⟩,
   ⟨"rfc7906.py:656", Rfc7906.AlgorithmIdentifier, Rfc7906.AlgorithmIdentifier⟩,
   ⟨"rfc7906.py:668", Rfc7906.Attribute, Rfc7906.Attribute⟩,
   ⟨"rfc7906.py:670", Rfc7906.ContentDecryptKeyID, Rfc7906.ContentDecryptKeyID⟩,
   ⟨"rfc7906.py:675", Rfc7906.Attribute, Rfc7906.Attribute⟩,
   ⟨"rfc7906.py:677", Rfc7906.SubjectInfoAccessSyntax, Rfc7906.SubjectInfoAccessSyntax⟩,
   ⟨"rfc7906.py:685", Rfc7906.Attribute, Rfc7906.Attribute⟩,
   ⟨"rfc7906.py:687", Rfc7906.GeneralNames, Rfc7906.GeneralNames⟩,
   ⟨"rfc7906.py:705", Rfc7906.ContentHints, Rfc7906.ContentHints⟩,
   ⟨"rfc7906.py:706", Rfc7906.CommunityIdentifiers, Rfc7906.CommunityIdentifiers⟩,
   ⟨"rfc7906.py:707", Rfc7906.BinarySigningTime, Rfc7906.BinarySigningTime⟩,
   ⟨"rfc7906.py:708", Rfc7906.ContentType, Rfc7906.ContentType⟩,
   ⟨"rfc7906.py:709", Rfc7906.MessageDigest, Rfc7906.MessageDigest⟩,
   ⟨"rfc7906.py:710", Rfc7906.KeyPkgIdentifierAndReceiptReq, Rfc7906.KeyPkgIdentifierAndReceiptReq⟩,
   ⟨"rfc7906.py:711", Rfc7906.KeyProvinceV2, Rfc7906.KeyProvinceV2⟩,
   ⟨"rfc7906.py:712", Rfc7906.Manifest, Rfc7906.Manifest⟩,
   ⟨"rfc7906.py:713", Rfc7906.KeyAlgorithm, Rfc7906.KeyAlgorithm⟩,
   ⟨"rfc7906.py:714", Rfc7906.Certificate, Rfc7906.Certificate⟩,
   ⟨"rfc7906.py:715", Rfc7906.KeyPkgReceiversV2, Rfc7906.KeyPkgReceiversV2⟩,
   ⟨"rfc7906.py:716", Rfc7906.TSECNomenclature, Rfc7906.TSECNomenclature⟩,
   ⟨"rfc7906.py:717", Rfc7906.KeyPurpose, Rfc7906.KeyPurpose⟩,
   ⟨"rfc7906.py:718", Rfc7906.KeyUse, Rfc7906.KeyUse⟩,
   ⟨"rfc7906.py:719", Rfc7906.TransOp, Rfc7906.TransOp⟩,
   ⟨"rfc7906.py:720", Rfc7906.KeyDistPeriod, Rfc7906.KeyDistPeriod⟩,
   ⟨"rfc7906.py:721", Rfc7906.KeyValidityPeriod, Rfc7906.KeyValidityPeriod⟩,
   ⟨"rfc7906.py:722", Rfc7906.KeyDuration, Rfc7906.KeyDuration⟩,
   ⟨"rfc7906.py:723", Rfc7906.Classification, Rfc7906.Classification⟩,
   ⟨"rfc7906.py:724", Rfc7906.SplitID, Rfc7906.SplitID⟩,
   ⟨"rfc7906.py:725", Rfc7906.KeyPkgType, Rfc7906.KeyPkgType⟩,
   ⟨"rfc7906.py:726", Rfc7906.SignatureUsage, Rfc7906.SignatureUsage⟩,
   ⟨"rfc7906.py:727", Rfc7906.CertificateChoices, Rfc7906.CertificateChoices⟩,
   ⟨"rfc7906.py:728", Rfc7906.PkiPath, Rfc7906.PkiPath⟩,
   ⟨"rfc7906.py:729", Rfc7906.CertificateSet, Rfc7906.CertificateSet⟩,
   ⟨"rfc7906.py:730", Rfc7906.AlgorithmIdentifier, Rfc7906.AlgorithmIdentifier⟩,
   ⟨"rfc7906.py:731", Rfc7906.ContentDecryptKeyID, Rfc7906.ContentDecryptKeyID⟩,
   ⟨"rfc7906.py:732", Rfc7906.SubjectInfoAccessSyntax, Rfc7906.SubjectInfoAccessSyntax⟩,
   ⟨"rfc7906.py:733", Rfc7906.GeneralNames, Rfc7906.GeneralNames⟩]

/-- Functions rfc7906.py defines. -/
def builders : List (String × (List Py.OidArg → Py.Obj)) :=
  []

def asModule : Py.Module :=
  { id := (Py.mod 108 "rfc7906"), imports := imports, effects := effects, classes := classes, objects := objects, protos := protos, snapshots := snapshots, builders := builders }

end Rfc7906
end Verif
