import Verif.Py.Obj
import Verif.Gen.Rfc5280
import Verif.Gen.Rfc5652

/-! Transcription of /repo/pyasn1_modules/rfc5755.py (generated by tools/gen.py). -/

namespace Verif
namespace Rfc5755

/-- rfc5755.py:28 -/
def MAX : Py.Bound :=
  .inf

/-- rfc5755.py:32 -/
def securityCategoryMap : Py.Entries :=
  []

/-- rfc5755.py:37 alias of `rfc5652.ContentInfo` -/
def ContentInfo : Py.Obj :=
  Rfc5652.ContentInfo

/-- rfc5755.py:42 alias of `rfc5280.AlgorithmIdentifier` -/
def AlgorithmIdentifier : Py.Obj :=
  Rfc5280.AlgorithmIdentifier

/-- rfc5755.py:44 alias of `rfc5280.Attribute` -/
def Attribute : Py.Obj :=
  Rfc5280.Attribute

/-- rfc5755.py:46 alias of `rfc5280.AuthorityInfoAccessSyntax` -/
def AuthorityInfoAccessSyntax : Py.Obj :=
  Rfc5280.AuthorityInfoAccessSyntax

/-- rfc5755.py:48 alias of `rfc5280.AuthorityKeyIdentifier` -/
def AuthorityKeyIdentifier : Py.Obj :=
  Rfc5280.AuthorityKeyIdentifier

/-- rfc5755.py:50 alias of `rfc5280.CertificateSerialNumber` -/
def CertificateSerialNumber : Py.Obj :=
  Rfc5280.CertificateSerialNumber

/-- rfc5755.py:52 alias of `rfc5280.CRLDistributionPoints` -/
def CRLDistributionPoints : Py.Obj :=
  Rfc5280.CRLDistributionPoints

/-- rfc5755.py:54 alias of `rfc5280.Extensions` -/
def Extensions : Py.Obj :=
  Rfc5280.Extensions

/-- rfc5755.py:56 alias of `rfc5280.Extension` -/
def Extension : Py.Obj :=
  Rfc5280.Extension

/-- rfc5755.py:58 alias of `rfc5280.GeneralNames` -/
def GeneralNames : Py.Obj :=
  Rfc5280.GeneralNames

/-- rfc5755.py:60 alias of `rfc5280.GeneralName` -/
def GeneralName : Py.Obj :=
  Rfc5280.GeneralName

/-- rfc5755.py:62 alias of `rfc5280.UniqueIdentifier` -/
def UniqueIdentifier : Py.Obj :=
  Rfc5280.UniqueIdentifier

/-- rfc5755.py:67 -/
def id_pkix : Py.Obj :=
  (Py.univ.ObjectIdentifier.call.callArcs [1, 3, 6, 1, 5, 5, 7])

/-- rfc5755.py:69 -/
def id_pe : Py.Obj :=
  (Rfc5755.id_pkix.addArcs [1])

/-- rfc5755.py:71 -/
def id_kp : Py.Obj :=
  (Rfc5755.id_pkix.addArcs [3])

/-- rfc5755.py:73 -/
def id_aca : Py.Obj :=
  (Rfc5755.id_pkix.addArcs [10])

/-- rfc5755.py:75 -/
def id_ad : Py.Obj :=
  (Rfc5755.id_pkix.addArcs [48])

/-- rfc5755.py:77 -/
def id_at : Py.Obj :=
  (Py.univ.ObjectIdentifier.call.callArcs [2, 5, 4])

/-- rfc5755.py:79 -/
def id_ce : Py.Obj :=
  (Py.univ.ObjectIdentifier.call.callArcs [2, 5, 29])

/-- rfc5755.py:84-87 `class AttCertVersion(univ.Integer)` -/
def AttCertVersion : Py.Obj :=
  Py.univ.Integer.setNamedValues (Py.NamedValues [("v2", 1)])

/-- rfc5755.py:90-95 `class IssuerSerial(univ.Sequence)` -/
def IssuerSerial : Py.Obj :=
  Py.univ.Sequence.setComponentType (Py.NamedTypes [
    Py.NamedType "issuer" Rfc5755.GeneralNames.call,
    Py.NamedType "serial" Rfc5755.CertificateSerialNumber.call,
    Py.OptionalNamedType "issuerUID" Rfc5755.UniqueIdentifier.call])

/-- rfc5755.py:98-111 `class ObjectDigestInfo(univ.Sequence)` -/
def ObjectDigestInfo : Py.Obj :=
  Py.univ.Sequence.setComponentType (Py.NamedTypes [
    Py.NamedType "digestedObjectType" (Py.univ.Enumerated.call.setNamedValues (Py.NamedValues [("publicKey", 0), ("publicKeyCert", 1), ("otherObjectTypes", 2)])),
    Py.OptionalNamedType "otherObjectTypeID" Py.univ.ObjectIdentifier.call,
    Py.NamedType "digestAlgorithm" Rfc5755.AlgorithmIdentifier.call,
    Py.NamedType "objectDigest" Py.univ.BitString.call])

/-- rfc5755.py:114-125 `class Holder(univ.Sequence)` -/
def Holder : Py.Obj :=
  Py.univ.Sequence.setComponentType (Py.NamedTypes [
    Py.OptionalNamedType "baseCertificateID" (Rfc5755.IssuerSerial.call.implicitTag (Py.Tag .context true 0)),
    Py.OptionalNamedType "entityName" (Rfc5755.GeneralNames.call.implicitTag (Py.Tag .context false 1)),
    Py.OptionalNamedType "objectDigestInfo" (Rfc5755.ObjectDigestInfo.call.implicitTag (Py.Tag .context true 2))])

/-- rfc5755.py:128-138 `class V2Form(univ.Sequence)` -/
def V2Form : Py.Obj :=
  Py.univ.Sequence.setComponentType (Py.NamedTypes [
    Py.OptionalNamedType "issuerName" Rfc5755.GeneralNames.call,
    Py.OptionalNamedType "baseCertificateID" (Rfc5755.IssuerSerial.call.implicitTag (Py.Tag .context true 0)),
    Py.OptionalNamedType "objectDigestInfo" (Rfc5755.ObjectDigestInfo.call.implicitTag (Py.Tag .context true 1))])

/-- rfc5755.py:141-146 `class AttCertIssuer(univ.Choice)` -/
def AttCertIssuer : Py.Obj :=
  Py.univ.Choice.setComponentType (Py.NamedTypes [
    Py.NamedType "v1Form" Rfc5755.GeneralNames.call,
    Py.NamedType "v2Form" (Rfc5755.V2Form.call.implicitTag (Py.Tag .context true 0))])

/-- rfc5755.py:149-153 `class AttCertValidityPeriod(univ.Sequence)` -/
def AttCertValidityPeriod : Py.Obj :=
  Py.univ.Sequence.setComponentType (Py.NamedTypes [
    Py.NamedType "notBeforeTime" Py.useful.GeneralizedTime.call,
    Py.NamedType "notAfterTime" Py.useful.GeneralizedTime.call])

/-- rfc5755.py:156-176 `class AttributeCertificateInfo(univ.Sequence)` -/
def AttributeCertificateInfo : Py.Obj :=
  Py.univ.Sequence.setComponentType (Py.NamedTypes [
    Py.NamedType "version" Rfc5755.AttCertVersion.call,
    Py.NamedType "holder" Rfc5755.Holder.call,
    Py.NamedType "issuer" Rfc5755.AttCertIssuer.call,
    Py.NamedType "signature" Rfc5755.AlgorithmIdentifier.call,
    Py.NamedType "serialNumber" Rfc5755.CertificateSerialNumber.call,
    Py.NamedType "attrCertValidityPeriod" Rfc5755.AttCertValidityPeriod.call,
    Py.NamedType "attributes" (Py.univ.SequenceOf.call.setComponentTypeOf Rfc5755.Attribute.call),
    Py.OptionalNamedType "issuerUniqueID" Rfc5755.UniqueIdentifier.call,
    Py.OptionalNamedType "extensions" Rfc5755.Extensions.call])

/-- rfc5755.py:179-184 `class AttributeCertificate(univ.Sequence)` -/
def AttributeCertificate : Py.Obj :=
  Py.univ.Sequence.setComponentType (Py.NamedTypes [
    Py.NamedType "acinfo" Rfc5755.AttributeCertificateInfo.call,
    Py.NamedType "signatureAlgorithm" Rfc5755.AlgorithmIdentifier.call,
    Py.NamedType "signatureValue" Py.univ.BitString.call])

/-- rfc5755.py:189 -/
def id_pe_ac_auditIdentity : Py.Obj :=
  (Rfc5755.id_pe.addArcs [4])

/-- rfc5755.py:191 -/
def id_ce_noRevAvail : Py.Obj :=
  (Rfc5755.id_ce.addArcs [56])

/-- rfc5755.py:193 -/
def id_ce_targetInformation : Py.Obj :=
  (Rfc5755.id_ce.addArcs [55])

/-- rfc5755.py:196-201 `class TargetCert(univ.Sequence)` -/
def TargetCert : Py.Obj :=
  Py.univ.Sequence.setComponentType (Py.NamedTypes [
    Py.NamedType "targetCertificate" Rfc5755.IssuerSerial.call,
    Py.OptionalNamedType "targetName" Rfc5755.GeneralName.call,
    Py.OptionalNamedType "certDigestInfo" Rfc5755.ObjectDigestInfo.call])

/-- rfc5755.py:204-215 `class Target(univ.Choice)` -/
def Target : Py.Obj :=
  Py.univ.Choice.setComponentType (Py.NamedTypes [
    Py.NamedType "targetName" (Rfc5755.GeneralName.call.implicitTag (Py.Tag .context false 0)),
    Py.NamedType "targetGroup" (Rfc5755.GeneralName.call.implicitTag (Py.Tag .context false 1)),
    Py.NamedType "targetCert" (Rfc5755.TargetCert.call.implicitTag (Py.Tag .context true 2))])

/-- rfc5755.py:218-219 `class Targets(univ.SequenceOf)` -/
def Targets : Py.Obj :=
  Py.univ.SequenceOf.setComponentTypeOf Rfc5755.Target.call

/-- rfc5755.py:222 -/
def id_pe_ac_proxying : Py.Obj :=
  (Rfc5755.id_pe.addArcs [10])

/-- rfc5755.py:225-226 `class ProxyInfo(univ.SequenceOf)` -/
def ProxyInfo : Py.Obj :=
  Py.univ.SequenceOf.setComponentTypeOf Rfc5755.Targets.call

/-- rfc5755.py:229 -/
def id_pe_aaControls : Py.Obj :=
  (Rfc5755.id_pe.addArcs [6])

/-- rfc5755.py:232-233 `class AttrSpec(univ.SequenceOf)` -/
def AttrSpec : Py.Obj :=
  Py.univ.SequenceOf.setComponentTypeOf Py.univ.ObjectIdentifier.call

/-- rfc5755.py:236-249 `class AAControls(univ.Sequence)` -/
def AAControls : Py.Obj :=
  Py.univ.Sequence.setComponentType (Py.NamedTypes [
    Py.OptionalNamedType "pathLenConstraint" (Py.univ.Integer.call.addSubtypeSpec (Py.ValueRangeConstraint (.fin 0) Rfc5755.MAX)),
    Py.OptionalNamedType "permittedAttrs" (Rfc5755.AttrSpec.call.implicitTag (Py.Tag .context false 0)),
    Py.OptionalNamedType "excludedAttrs" (Rfc5755.AttrSpec.call.implicitTag (Py.Tag .context false 1)),
    Py.DefaultedNamedType "permitUnSpecified" (Py.univ.Boolean.call.callInt 1)])

/-- rfc5755.py:254 -/
def id_aca_authenticationInfo : Py.Obj :=
  (Rfc5755.id_aca.addArcs [1])

/-- rfc5755.py:257 -/
def id_aca_accessIdentity : Py.Obj :=
  (Rfc5755.id_aca.addArcs [2])

/-- rfc5755.py:260-265 `class SvceAuthInfo(univ.Sequence)` -/
def SvceAuthInfo : Py.Obj :=
  Py.univ.Sequence.setComponentType (Py.NamedTypes [
    Py.NamedType "service" Rfc5755.GeneralName.call,
    Py.NamedType "ident" Rfc5755.GeneralName.call,
    Py.OptionalNamedType "authInfo" Py.univ.OctetString.call])

/-- rfc5755.py:268 -/
def id_aca_chargingIdentity : Py.Obj :=
  (Rfc5755.id_aca.addArcs [3])

/-- rfc5755.py:271 -/
def id_aca_group : Py.Obj :=
  (Rfc5755.id_aca.addArcs [4])

/-- rfc5755.py:274-286 `class IetfAttrSyntax(univ.Sequence)` -/
def IetfAttrSyntax : Py.Obj :=
  Py.univ.Sequence.setComponentType (Py.NamedTypes [
    Py.OptionalNamedType "policyAuthority" (Rfc5755.GeneralNames.call.implicitTag (Py.Tag .context false 0)),
    Py.NamedType "values" (Py.univ.SequenceOf.call.setComponentTypeOf (Py.univ.Choice.call.setComponentType (Py.NamedTypes [
    Py.NamedType "octets" Py.univ.OctetString.call,
    Py.NamedType "oid" Py.univ.ObjectIdentifier.call,
    Py.NamedType "string" Py.char.UTF8String.call])))])

/-- rfc5755.py:289 -/
def id_at_role : Py.Obj :=
  (Rfc5755.id_at.addArcs [72])

/-- rfc5755.py:292-300 `class RoleSyntax(univ.Sequence)` -/
def RoleSyntax : Py.Obj :=
  Py.univ.Sequence.setComponentType (Py.NamedTypes [
    Py.OptionalNamedType "roleAuthority" (Rfc5755.GeneralNames.call.implicitTag (Py.Tag .context false 0)),
    Py.NamedType "roleName" (Rfc5755.GeneralName.call.implicitTag (Py.Tag .context false 1))])

/-- rfc5755.py:303-311 `class ClassList(univ.BitString)` -/
def ClassList : Py.Obj :=
  Py.univ.BitString.setNamedValues (Py.NamedValues [("unmarked", 0), ("unclassified", 1), ("restricted", 2), ("confidential", 3), ("secret", 4), ("topSecret", 5)])

/-- rfc5755.py:314-323 `class SecurityCategory(univ.Sequence)` -/
def SecurityCategory : Py.Obj :=
  Py.univ.Sequence.setComponentType (Py.NamedTypes [
    Py.NamedType "type" (Py.univ.ObjectIdentifier.call.implicitTag (Py.Tag .context false 0)),
    Py.NamedType "value" (Py.univ.Any.call.implicitTag (Py.Tag .context false 1)) (openType := some (Py.OpenType "type" (Py.map 19 "rfc5755.securityCategoryMap")))])

/-- rfc5755.py:326 -/
def id_at_clearance : Py.Obj :=
  (Py.univ.ObjectIdentifier.call.callArcs [2, 5, 4, 55])

/-- rfc5755.py:329-337 `class Clearance(univ.Sequence)` -/
def Clearance : Py.Obj :=
  Py.univ.Sequence.setComponentType (Py.NamedTypes [
    Py.NamedType "policyId" Py.univ.ObjectIdentifier.call,
    Py.DefaultedNamedType "classList" (Rfc5755.ClassList.call.callStr "unclassified"),
    Py.OptionalNamedType "securityCategories" (Py.univ.SetOf.call.setComponentTypeOf Rfc5755.SecurityCategory.call)])

/-- rfc5755.py:340 -/
def id_at_clearance_rfc3281 : Py.Obj :=
  (Py.univ.ObjectIdentifier.call.callArcs [2, 5, 1, 5, 55])

/-- rfc5755.py:343-356 `class Clearance_rfc3281(univ.Sequence)` -/
def Clearance_rfc3281 : Py.Obj :=
  Py.univ.Sequence.setComponentType (Py.NamedTypes [
    Py.NamedType "policyId" (Py.univ.ObjectIdentifier.call.implicitTag (Py.Tag .context false 0)),
    Py.DefaultedNamedType "classList" ((Rfc5755.ClassList.call.implicitTag (Py.Tag .context false 1)).callStr "unclassified"),
    Py.OptionalNamedType "securityCategories" ((Py.univ.SetOf.call.setComponentTypeOf Rfc5755.SecurityCategory.call).implicitTag (Py.Tag .context false 2))])

/-- rfc5755.py:359 -/
def id_aca_encAttrs : Py.Obj :=
  (Rfc5755.id_aca.addArcs [6])

/-- rfc5755.py:362-367 `class ACClearAttrs(univ.Sequence)` -/
def ACClearAttrs : Py.Obj :=
  Py.univ.Sequence.setComponentType (Py.NamedTypes [
    Py.NamedType "acIssuer" Rfc5755.GeneralName.call,
    Py.NamedType "acSerial" Py.univ.Integer.call,
    Py.NamedType "attrs" (Py.univ.SequenceOf.call.setComponentTypeOf Rfc5755.Attribute.call)])

/-- rfc5755.py:373-379 -/
def _certificateExtensionsMapUpdate : Py.Entries :=
  [(Rfc5755.id_pe_ac_auditIdentity.value, Py.univ.OctetString.call.ty),
    (Rfc5755.id_ce_noRevAvail.value, Py.univ.Null.call.ty),
    (Rfc5755.id_ce_targetInformation.value, Rfc5755.Targets.call.ty),
    (Rfc5755.id_pe_ac_proxying.value, Rfc5755.ProxyInfo.call.ty),
    (Rfc5755.id_pe_aaControls.value, Rfc5755.AAControls.call.ty)]

/-- rfc5755.py:387-396 -/
def _certificateAttributesMapUpdate : Py.Entries :=
  [(Rfc5755.id_aca_authenticationInfo.value, Rfc5755.SvceAuthInfo.call.ty),
    (Rfc5755.id_aca_accessIdentity.value, Rfc5755.SvceAuthInfo.call.ty),
    (Rfc5755.id_aca_chargingIdentity.value, Rfc5755.IetfAttrSyntax.call.ty),
    (Rfc5755.id_aca_group.value, Rfc5755.IetfAttrSyntax.call.ty),
    (Rfc5755.id_at_role.value, Rfc5755.RoleSyntax.call.ty),
    (Rfc5755.id_at_clearance.value, Rfc5755.Clearance.call.ty),
    (Rfc5755.id_at_clearance_rfc3281.value, Rfc5755.Clearance_rfc3281.call.ty),
    (Rfc5755.id_aca_encAttrs.value, Rfc5755.ContentInfo.call.ty)]

/-- Modules of this package imported by rfc5755.py, in textual order. -/
def imports : List Py.Ident :=
  [(Py.mod 15 "rfc5280"), (Py.mod 16 "rfc5652")]

/-- Dictionary operations executed when rfc5755.py is imported, in program order. -/
def effects : List Py.Effect :=
  [.create (Py.map 19 "rfc5755.securityCategoryMap") Rfc5755.securityCategoryMap /- rfc5755.py:32 -/,
   .create (Py.map 91 "rfc5755._certificateExtensionsMapUpdate") Rfc5755._certificateExtensionsMapUpdate /- rfc5755.py:373-379 -/,
   .update (Py.map 48 "rfc5280.certificateExtensionsMap") Rfc5755._certificateExtensionsMapUpdate /- rfc5755.py:381 -/,
   .create (Py.map 92 "rfc5755._certificateAttributesMapUpdate") Rfc5755._certificateAttributesMapUpdate /- rfc5755.py:387-396 -/,
   .update (Py.map 4 "rfc5280.certificateAttributesMap") Rfc5755._certificateAttributesMapUpdate /- rfc5755.py:398 -/]

/-- ASN.1 types rfc5755.py binds at module level (final version of each name), plus nested classes. -/
def classes : List (String × Py.Obj) :=
  [("rfc5755.ContentInfo", Rfc5755.ContentInfo),
   ("rfc5755.AlgorithmIdentifier", Rfc5755.AlgorithmIdentifier),
   ("rfc5755.Attribute", Rfc5755.Attribute),
   ("rfc5755.AuthorityInfoAccessSyntax", Rfc5755.AuthorityInfoAccessSyntax),
   ("rfc5755.AuthorityKeyIdentifier", Rfc5755.AuthorityKeyIdentifier),
   ("rfc5755.CertificateSerialNumber", Rfc5755.CertificateSerialNumber),
   ("rfc5755.CRLDistributionPoints", Rfc5755.CRLDistributionPoints),
   ("rfc5755.Extensions", Rfc5755.Extensions),
   ("rfc5755.Extension", Rfc5755.Extension),
   ("rfc5755.GeneralNames", Rfc5755.GeneralNames),
   ("rfc5755.GeneralName", Rfc5755.GeneralName),
   ("rfc5755.UniqueIdentifier", Rfc5755.UniqueIdentifier),
   ("rfc5755.AttCertVersion", Rfc5755.AttCertVersion),
   ("rfc5755.IssuerSerial", Rfc5755.IssuerSerial),
   ("rfc5755.ObjectDigestInfo", Rfc5755.ObjectDigestInfo),
   ("rfc5755.Holder", Rfc5755.Holder),
   ("rfc5755.V2Form", Rfc5755.V2Form),
   ("rfc5755.AttCertIssuer", Rfc5755.AttCertIssuer),
   ("rfc5755.AttCertValidityPeriod", Rfc5755.AttCertValidityPeriod),
   ("rfc5755.AttributeCertificateInfo", Rfc5755.AttributeCertificateInfo),
   ("rfc5755.AttributeCertificate", Rfc5755.AttributeCertificate),
   ("rfc5755.TargetCert", Rfc5755.TargetCert),
   ("rfc5755.Target", Rfc5755.Target),
   ("rfc5755.Targets", Rfc5755.Targets),
   ("rfc5755.ProxyInfo", Rfc5755.ProxyInfo),
   ("rfc5755.AttrSpec", Rfc5755.AttrSpec),
   ("rfc5755.AAControls", Rfc5755.AAControls),
   ("rfc5755.SvceAuthInfo", Rfc5755.SvceAuthInfo),
   ("rfc5755.IetfAttrSyntax", Rfc5755.IetfAttrSyntax),
   ("rfc5755.RoleSyntax", Rfc5755.RoleSyntax),
   ("rfc5755.ClassList", Rfc5755.ClassList),
   ("rfc5755.SecurityCategory", Rfc5755.SecurityCategory),
   ("rfc5755.Clearance", Rfc5755.Clearance),
   ("rfc5755.Clearance_rfc3281", Rfc5755.Clearance_rfc3281),
   ("rfc5755.ACClearAttrs", Rfc5755.ACClearAttrs)]

/-- pyasn1 instances rfc5755.py binds at module level. -/
def objects : List (String × Py.Obj) :=
  [("rfc5755.id_pkix", Rfc5755.id_pkix),
   ("rfc5755.id_pe", Rfc5755.id_pe),
   ("rfc5755.id_kp", Rfc5755.id_kp),
   ("rfc5755.id_aca", Rfc5755.id_aca),
   ("rfc5755.id_ad", Rfc5755.id_ad),
   ("rfc5755.id_at", Rfc5755.id_at),
   ("rfc5755.id_ce", Rfc5755.id_ce),
   ("rfc5755.id_pe_ac_auditIdentity", Rfc5755.id_pe_ac_auditIdentity),
   ("rfc5755.id_ce_noRevAvail", Rfc5755.id_ce_noRevAvail),
   ("rfc5755.id_ce_targetInformation", Rfc5755.id_ce_targetInformation),
   ("rfc5755.id_pe_ac_proxying", Rfc5755.id_pe_ac_proxying),
   ("rfc5755.id_pe_aaControls", Rfc5755.id_pe_aaControls),
   ("rfc5755.id_aca_authenticationInfo", Rfc5755.id_aca_authenticationInfo),
   ("rfc5755.id_aca_accessIdentity", Rfc5755.id_aca_accessIdentity),
   ("rfc5755.id_aca_chargingIdentity", Rfc5755.id_aca_chargingIdentity),
   ("rfc5755.id_aca_group", Rfc5755.id_aca_group),
   ("rfc5755.id_at_role", Rfc5755.id_at_role),
   ("rfc5755.id_at_clearance", Rfc5755.id_at_clearance),
   ("rfc5755.id_at_clearance_rfc3281", Rfc5755.id_at_clearance_rfc3281),
   ("rfc5755.id_aca_encAttrs", Rfc5755.id_aca_encAttrs)]

/-- pyasn1 instances rfc5755.py fills in by item assignment. -/
def protos : List (String × Py.Proto) :=
  []

/-- Every place of rfc5755.py that instantiates a class of the package: where, the class as it is
at that point, and the class as it is when the import has finished. -/
def snapshots : List Py.Snapshot :=
  [⟨"rfc5755.py:92", Rfc5755.GeneralNames, Rfc5755.GeneralNames⟩,
   ⟨"rfc5755.py:93", Rfc5755.CertificateSerialNumber, Rfc5755.CertificateSerialNumber⟩,
   ⟨"rfc5755.py:94", Rfc5755.UniqueIdentifier, Rfc5755.UniqueIdentifier⟩,
   ⟨"rfc5755.py:108", Rfc5755.AlgorithmIdentifier, Rfc5755.AlgorithmIdentifier⟩,
   ⟨"rfc5755.py:117", Rfc5755.IssuerSerial, Rfc5755.IssuerSerial⟩,
   ⟨"rfc5755.py:120", Rfc5755.GeneralNames, Rfc5755.GeneralNames⟩,
   ⟨"rfc5755.py:123", Rfc5755.ObjectDigestInfo, Rfc5755.ObjectDigestInfo⟩,
   ⟨"rfc5755.py:131", Rfc5755.GeneralNames, Rfc5755.GeneralNames⟩,
   ⟨"rfc5755.py:133", Rfc5755.IssuerSerial, Rfc5755.IssuerSerial⟩,
   ⟨"rfc5755.py:136", Rfc5755.ObjectDigestInfo, Rfc5755.ObjectDigestInfo⟩,
   ⟨"rfc5755.py:143", Rfc5755.GeneralNames, Rfc5755.GeneralNames⟩,
   ⟨"rfc5755.py:144", Rfc5755.V2Form, Rfc5755.V2Form⟩,
   ⟨"rfc5755.py:159", Rfc5755.AttCertVersion, Rfc5755.AttCertVersion⟩,
   ⟨"rfc5755.py:161", Rfc5755.Holder, Rfc5755.Holder⟩,
   ⟨"rfc5755.py:163", Rfc5755.AttCertIssuer, Rfc5755.AttCertIssuer⟩,
   ⟨"rfc5755.py:165", Rfc5755.AlgorithmIdentifier, Rfc5755.AlgorithmIdentifier⟩,
   ⟨"rfc5755.py:167", Rfc5755.CertificateSerialNumber, Rfc5755.CertificateSerialNumber⟩,
   ⟨"rfc5755.py:169", Rfc5755.AttCertValidityPeriod, Rfc5755.AttCertValidityPeriod⟩,
   ⟨"rfc5755.py:171", Rfc5755.Attribute, Rfc5755.Attribute⟩,
   ⟨"rfc5755.py:173", Rfc5755.UniqueIdentifier, Rfc5755.UniqueIdentifier⟩,
   ⟨"rfc5755.py:175", Rfc5755.Extensions, Rfc5755.Extensions⟩,
   ⟨"rfc5755.py:181", Rfc5755.AttributeCertificateInfo, Rfc5755.AttributeCertificateInfo⟩,
   ⟨"rfc5755.py:182", Rfc5755.AlgorithmIdentifier, Rfc5755.AlgorithmIdentifier⟩,
   ⟨"rfc5755.py:198", Rfc5755.IssuerSerial, Rfc5755.IssuerSerial⟩,
   ⟨"rfc5755.py:199", Rfc5755.GeneralName, Rfc5755.GeneralName⟩,
   ⟨"rfc5755.py:200", Rfc5755.ObjectDigestInfo, Rfc5755.ObjectDigestInfo⟩,
   ⟨"rfc5755.py:207", Rfc5755.GeneralName, Rfc5755.GeneralName⟩,
   ⟨"rfc5755.py:210", Rfc5755.GeneralName, Rfc5755.GeneralName⟩,
   ⟨"rfc5755.py:213", Rfc5755.TargetCert, Rfc5755.TargetCert⟩,
   ⟨"rfc5755.py:219", Rfc5755.Target, Rfc5755.Target⟩,
   ⟨"rfc5755.py:226", Rfc5755.Targets, Rfc5755.Targets⟩,
   ⟨"rfc5755.py:242", Rfc5755.AttrSpec, Rfc5755.AttrSpec⟩,
   ⟨"rfc5755.py:245", Rfc5755.AttrSpec, Rfc5755.AttrSpec⟩,
   ⟨"rfc5755.py:262", Rfc5755.GeneralName, Rfc5755.GeneralName⟩,
   ⟨"rfc5755.py:263", Rfc5755.GeneralName, Rfc5755.GeneralName⟩,
   ⟨"rfc5755.py:277", Rfc5755.GeneralNames, Rfc5755.GeneralNames⟩,
   ⟨"rfc5755.py:295", Rfc5755.GeneralNames, Rfc5755.GeneralNames⟩,
   ⟨"rfc5755.py:298", Rfc5755.GeneralName, Rfc5755.GeneralName⟩,
   ⟨"rfc5755.py:334", Rfc5755.ClassList, Rfc5755.ClassList⟩,
   ⟨"rfc5755.py:336", Rfc5755.SecurityCategory, Rfc5755.SecurityCategory⟩,
   ⟨"rfc5755.py:349", Rfc5755.ClassList, Rfc5755.ClassList⟩,
   ⟨"rfc5755.py:353", Rfc5755.SecurityCategory, Rfc5755.SecurityCategory⟩,
   ⟨"rfc5755.py:364", Rfc5755.GeneralName, Rfc5755.GeneralName⟩,
   ⟨"rfc5755.py:366", Rfc5755.Attribute, Rfc5755.Attribute⟩,
   ⟨"rfc5755.py:376", Rfc5755.Targets, Rfc5755.Targets⟩,
   ⟨"rfc5755.py:377", Rfc5755.ProxyInfo, Rfc5755.ProxyInfo⟩,
   ⟨"rfc5755.py:378", Rfc5755.AAControls, Rfc5755.AAControls⟩,
   ⟨"rfc5755.py:388", Rfc5755.SvceAuthInfo, Rfc5755.SvceAuthInfo⟩,
   ⟨"rfc5755.py:389", Rfc5755.SvceAuthInfo, Rfc5755.SvceAuthInfo⟩,
   ⟨"rfc5755.py:390", Rfc5755.IetfAttrSyntax, Rfc5755.IetfAttrSyntax⟩,
   ⟨"rfc5755.py:391", Rfc5755.IetfAttrSyntax, Rfc5755.IetfAttrSyntax⟩,
   ⟨"rfc5755.py:392", Rfc5755.RoleSyntax, Rfc5755.RoleSyntax⟩,
   ⟨"rfc5755.py:393", Rfc5755.Clearance, Rfc5755.Clearance⟩,
   ⟨"rfc5755.py:394", Rfc5755.Clearance_rfc3281, Rfc5755.Clearance_rfc3281⟩,
   ⟨"rfc5755.py:395", Rfc5755.ContentInfo, Rfc5755.ContentInfo⟩]

/-- Functions rfc5755.py defines. -/
def builders : List (String × (List Py.OidArg → Py.Obj)) :=
  []

def asModule : Py.Module :=
  { id := (Py.mod 27 "rfc5755"), imports := imports, effects := effects, classes := classes, objects := objects, protos := protos, snapshots := snapshots, builders := builders }

end Rfc5755
end Verif
