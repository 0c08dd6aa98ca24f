import Verif.Py.Obj
import Verif.Gen.Rfc3280

/-! Transcription of /repo/pyasn1_modules/rfc3281.py (generated by tools/gen.py). -/

namespace Verif
namespace Rfc3281

/-- rfc3281.py:24 -/
def MAX : Py.Bound :=
  .inf

/-- rfc3281.py:27-35 `def _buildOid(*components)` -/
def _buildOid (components : List Py.OidArg) : Py.Obj :=
  match Py.oidLoop [] components with
  | some output => Py.univ.ObjectIdentifier.call.callArcs output
  | none => .fail "OID without value"

/-- rfc3281.py:38-39 `class ObjectDigestInfo(univ.Sequence)` -/
def ObjectDigestInfo__0 : Py.Obj :=
  Py.univ.Sequence

/-- rfc3281.py:42-48 `ObjectDigestInfo.componentType = ...` -/
def ObjectDigestInfo : Py.Obj :=
  Rfc3281.ObjectDigestInfo__0.setComponentType (Py.NamedTypes [
    Py.NamedType "digestedObjectType" (Py.univ.Enumerated.call.setNamedValues (Py.NamedValues [("publicKey", 0), ("publicKeyCert", 1), ("otherObjectTypes", 2)])),
    Py.OptionalNamedType "otherObjectTypeID" Py.univ.ObjectIdentifier.call,
    Py.NamedType "digestAlgorithm" Rfc3280.AlgorithmIdentifier.call,
    Py.NamedType "objectDigest" Py.univ.BitString.call])

/-- rfc3281.py:51-52 `class IssuerSerial(univ.Sequence)` -/
def IssuerSerial__0 : Py.Obj :=
  Py.univ.Sequence

/-- rfc3281.py:55-59 `IssuerSerial.componentType = ...` -/
def IssuerSerial : Py.Obj :=
  Rfc3281.IssuerSerial__0.setComponentType (Py.NamedTypes [
    Py.NamedType "issuer" Rfc3280.GeneralNames.call,
    Py.NamedType "serial" Rfc3280.CertificateSerialNumber.call,
    Py.OptionalNamedType "issuerUID" Rfc3280.UniqueIdentifier.call])

/-- rfc3281.py:62-63 `class TargetCert(univ.Sequence)` -/
def TargetCert__0 : Py.Obj :=
  Py.univ.Sequence

/-- rfc3281.py:66-70 `TargetCert.componentType = ...` -/
def TargetCert : Py.Obj :=
  Rfc3281.TargetCert__0.setComponentType (Py.NamedTypes [
    Py.NamedType "targetCertificate" Rfc3281.IssuerSerial.call,
    Py.OptionalNamedType "targetName" Rfc3280.GeneralName.call,
    Py.OptionalNamedType "certDigestInfo" Rfc3281.ObjectDigestInfo.call])

/-- rfc3281.py:73-74 `class Target(univ.Choice)` -/
def Target__0 : Py.Obj :=
  Py.univ.Choice

/-- rfc3281.py:77-84 `Target.componentType = ...` -/
def Target : Py.Obj :=
  Rfc3281.Target__0.setComponentType (Py.NamedTypes [
    Py.NamedType "targetName" (Rfc3280.GeneralName.call.implicitTag (Py.Tag .context false 0)),
    Py.NamedType "targetGroup" (Rfc3280.GeneralName.call.implicitTag (Py.Tag .context false 1)),
    Py.NamedType "targetCert" (Rfc3281.TargetCert.call.implicitTag (Py.Tag .context true 2))])

/-- rfc3281.py:87-88 `class Targets(univ.SequenceOf)` -/
def Targets__0 : Py.Obj :=
  Py.univ.SequenceOf

/-- rfc3281.py:91 `Targets.componentType = ...` -/
def Targets : Py.Obj :=
  Rfc3281.Targets__0.setComponentTypeOf Rfc3281.Target.call

/-- rfc3281.py:94-95 `class ProxyInfo(univ.SequenceOf)` -/
def ProxyInfo__0 : Py.Obj :=
  Py.univ.SequenceOf

/-- rfc3281.py:98 `ProxyInfo.componentType = ...` -/
def ProxyInfo : Py.Obj :=
  Rfc3281.ProxyInfo__0.setComponentTypeOf Rfc3281.Targets.call

/-- rfc3281.py:100 -/
def id_at_role : Py.Obj :=
  (Rfc3281._buildOid [.oid Rfc3280.id_at, .num 72])

/-- rfc3281.py:102 -/
def id_pe_aaControls : Py.Obj :=
  (Rfc3281._buildOid [.oid Rfc3280.id_pe, .num 6])

/-- rfc3281.py:104 -/
def id_ce_targetInformation : Py.Obj :=
  (Rfc3281._buildOid [.oid Rfc3280.id_ce, .num 55])

/-- rfc3281.py:106 -/
def id_pe_ac_auditIdentity : Py.Obj :=
  (Rfc3281._buildOid [.oid Rfc3280.id_pe, .num 4])

/-- rfc3281.py:109-110 `class ClassList(univ.BitString)` -/
def ClassList__0 : Py.Obj :=
  Py.univ.BitString

/-- rfc3281.py:113-120 `ClassList.namedValues = ...` -/
def ClassList : Py.Obj :=
  Rfc3281.ClassList__0.setNamedValues (Py.NamedValues [("unmarked", 0), ("unclassified", 1), ("restricted", 2), ("confidential", 3), ("secret", 4), ("topSecret", 5)])

/-- rfc3281.py:123-124 `class SecurityCategory(univ.Sequence)` -/
def SecurityCategory__0 : Py.Obj :=
  Py.univ.Sequence

/-- rfc3281.py:127-131 `SecurityCategory.componentType = ...` -/
def SecurityCategory : Py.Obj :=
  Rfc3281.SecurityCategory__0.setComponentType (Py.NamedTypes [
    Py.NamedType "type" (Py.univ.ObjectIdentifier.call.implicitTag (Py.Tag .context false 0)),
    Py.NamedType "value" (Py.univ.Any.call.implicitTag (Py.Tag .context false 1))])

/-- rfc3281.py:134-135 `class Clearance(univ.Sequence)` -/
def Clearance__0 : Py.Obj :=
  Py.univ.Sequence

/-- rfc3281.py:138-147 `Clearance.componentType = ...` -/
def Clearance : Py.Obj :=
  Rfc3281.Clearance__0.setComponentType (Py.NamedTypes [
    Py.NamedType "policyId" (Py.univ.ObjectIdentifier.call.implicitTag (Py.Tag .context false 0)),
    Py.DefaultedNamedType "classList" ((Rfc3281.ClassList.call.implicitTag (Py.Tag .context false 1)).callStr "unclassified"),
    Py.OptionalNamedType "securityCategories" ((Py.univ.SetOf.call.setComponentTypeOf Rfc3281.SecurityCategory.call).implicitTag (Py.Tag .context false 2))])

/-- rfc3281.py:150-151 `class AttCertVersion(univ.Integer)` -/
def AttCertVersion__0 : Py.Obj :=
  Py.univ.Integer

/-- rfc3281.py:154-156 `AttCertVersion.namedValues = ...` -/
def AttCertVersion : Py.Obj :=
  Rfc3281.AttCertVersion__0.setNamedValues (Py.NamedValues [("v2", 1)])

/-- rfc3281.py:158 -/
def id_aca : Py.Obj :=
  (Rfc3281._buildOid [.oid Rfc3280.id_pkix, .num 10])

/-- rfc3281.py:160 -/
def id_at_clearance : Py.Obj :=
  (Rfc3281._buildOid [.num 2, .num 5, .num 1, .num 5, .num 55])

/-- rfc3281.py:163-164 `class AttrSpec(univ.SequenceOf)` -/
def AttrSpec__0 : Py.Obj :=
  Py.univ.SequenceOf

/-- rfc3281.py:167 `AttrSpec.componentType = ...` -/
def AttrSpec : Py.Obj :=
  Rfc3281.AttrSpec__0.setComponentTypeOf Py.univ.ObjectIdentifier.call

/-- rfc3281.py:170-171 `class AAControls(univ.Sequence)` -/
def AAControls__0 : Py.Obj :=
  Py.univ.Sequence

/-- rfc3281.py:174-182 `AAControls.componentType = ...` -/
def AAControls : Py.Obj :=
  Rfc3281.AAControls__0.setComponentType (Py.NamedTypes [
    Py.OptionalNamedType "pathLenConstraint" (Py.univ.Integer.call.addSubtypeSpec (Py.ValueRangeConstraint (.fin 0) Rfc3281.MAX)),
    Py.OptionalNamedType "permittedAttrs" (Rfc3281.AttrSpec.call.implicitTag (Py.Tag .context false 0)),
    Py.OptionalNamedType "excludedAttrs" (Rfc3281.AttrSpec.call.implicitTag (Py.Tag .context false 1)),
    Py.DefaultedNamedType "permitUnSpecified" (Py.univ.Boolean.call.callInt 1)])

/-- rfc3281.py:185-186 `class AttCertValidityPeriod(univ.Sequence)` -/
def AttCertValidityPeriod__0 : Py.Obj :=
  Py.univ.Sequence

/-- rfc3281.py:189-192 `AttCertValidityPeriod.componentType = ...` -/
def AttCertValidityPeriod : Py.Obj :=
  Rfc3281.AttCertValidityPeriod__0.setComponentType (Py.NamedTypes [
    Py.NamedType "notBeforeTime" Py.useful.GeneralizedTime.call,
    Py.NamedType "notAfterTime" Py.useful.GeneralizedTime.call])

/-- rfc3281.py:195 -/
def id_aca_authenticationInfo : Py.Obj :=
  (Rfc3281._buildOid [.oid Rfc3281.id_aca, .num 1])

/-- rfc3281.py:198-199 `class V2Form(univ.Sequence)` -/
def V2Form__0 : Py.Obj :=
  Py.univ.Sequence

/-- rfc3281.py:202-208 `V2Form.componentType = ...` -/
def V2Form : Py.Obj :=
  Rfc3281.V2Form__0.setComponentType (Py.NamedTypes [
    Py.OptionalNamedType "issuerName" Rfc3280.GeneralNames.call,
    Py.OptionalNamedType "baseCertificateID" (Rfc3281.IssuerSerial.call.implicitTag (Py.Tag .context true 0)),
    Py.OptionalNamedType "objectDigestInfo" (Rfc3281.ObjectDigestInfo.call.implicitTag (Py.Tag .context true 1))])

/-- rfc3281.py:211-212 `class AttCertIssuer(univ.Choice)` -/
def AttCertIssuer__0 : Py.Obj :=
  Py.univ.Choice

/-- rfc3281.py:215-219 `AttCertIssuer.componentType = ...` -/
def AttCertIssuer : Py.Obj :=
  Rfc3281.AttCertIssuer__0.setComponentType (Py.NamedTypes [
    Py.NamedType "v1Form" Rfc3280.GeneralNames.call,
    Py.NamedType "v2Form" (Rfc3281.V2Form.call.implicitTag (Py.Tag .context true 0))])

/-- rfc3281.py:222-223 `class Holder(univ.Sequence)` -/
def Holder__0 : Py.Obj :=
  Py.univ.Sequence

/-- rfc3281.py:226-233 `Holder.componentType = ...` -/
def Holder : Py.Obj :=
  Rfc3281.Holder__0.setComponentType (Py.NamedTypes [
    Py.OptionalNamedType "baseCertificateID" (Rfc3281.IssuerSerial.call.implicitTag (Py.Tag .context true 0)),
    Py.OptionalNamedType "entityName" (Rfc3280.GeneralNames.call.implicitTag (Py.Tag .context false 1)),
    Py.OptionalNamedType "objectDigestInfo" (Rfc3281.ObjectDigestInfo.call.implicitTag (Py.Tag .context true 2))])

/-- rfc3281.py:236-237 `class AttributeCertificateInfo(univ.Sequence)` -/
def AttributeCertificateInfo__0 : Py.Obj :=
  Py.univ.Sequence

/-- rfc3281.py:240-250 `AttributeCertificateInfo.componentType = ...` -/
def AttributeCertificateInfo : Py.Obj :=
  Rfc3281.AttributeCertificateInfo__0.setComponentType (Py.NamedTypes [
    Py.NamedType "version" Rfc3281.AttCertVersion.call,
    Py.NamedType "holder" Rfc3281.Holder.call,
    Py.NamedType "issuer" Rfc3281.AttCertIssuer.call,
    Py.NamedType "signature" Rfc3280.AlgorithmIdentifier.call,
    Py.NamedType "serialNumber" Rfc3280.CertificateSerialNumber.call,
    Py.NamedType "attrCertValidityPeriod" Rfc3281.AttCertValidityPeriod.call,
    Py.NamedType "attributes" (Py.univ.SequenceOf.call.setComponentTypeOf Rfc3280.Attribute.call),
    Py.OptionalNamedType "issuerUniqueID" Rfc3280.UniqueIdentifier.call,
    Py.OptionalNamedType "extensions" Rfc3280.Extensions.call])

/-- rfc3281.py:253-254 `class AttributeCertificate(univ.Sequence)` -/
def AttributeCertificate__0 : Py.Obj :=
  Py.univ.Sequence

/-- rfc3281.py:257-261 `AttributeCertificate.componentType = ...` -/
def AttributeCertificate : Py.Obj :=
  Rfc3281.AttributeCertificate__0.setComponentType (Py.NamedTypes [
    Py.NamedType "acinfo" Rfc3281.AttributeCertificateInfo.call,
    Py.NamedType "signatureAlgorithm" Rfc3280.AlgorithmIdentifier.call,
    Py.NamedType "signatureValue" Py.univ.BitString.call])

/-- rfc3281.py:263 -/
def id_mod : Py.Obj :=
  (Rfc3281._buildOid [.oid Rfc3280.id_pkix, .num 0])

/-- rfc3281.py:265 -/
def id_mod_attribute_cert : Py.Obj :=
  (Rfc3281._buildOid [.oid Rfc3281.id_mod, .num 12])

/-- rfc3281.py:267 -/
def id_aca_accessIdentity : Py.Obj :=
  (Rfc3281._buildOid [.oid Rfc3281.id_aca, .num 2])

/-- rfc3281.py:270-271 `class RoleSyntax(univ.Sequence)` -/
def RoleSyntax__0 : Py.Obj :=
  Py.univ.Sequence

/-- rfc3281.py:274-279 `RoleSyntax.componentType = ...` -/
def RoleSyntax : Py.Obj :=
  Rfc3281.RoleSyntax__0.setComponentType (Py.NamedTypes [
    Py.OptionalNamedType "roleAuthority" (Rfc3280.GeneralNames.call.implicitTag (Py.Tag .context false 0)),
    Py.NamedType "roleName" (Rfc3280.GeneralName.call.implicitTag (Py.Tag .context false 1))])

/-- rfc3281.py:281 -/
def id_aca_chargingIdentity : Py.Obj :=
  (Rfc3281._buildOid [.oid Rfc3281.id_aca, .num 3])

/-- rfc3281.py:284-285 `class ACClearAttrs(univ.Sequence)` -/
def ACClearAttrs__0 : Py.Obj :=
  Py.univ.Sequence

/-- rfc3281.py:288-292 `ACClearAttrs.componentType = ...` -/
def ACClearAttrs : Py.Obj :=
  Rfc3281.ACClearAttrs__0.setComponentType (Py.NamedTypes [
    Py.NamedType "acIssuer" Rfc3280.GeneralName.call,
    Py.NamedType "acSerial" Py.univ.Integer.call,
    Py.NamedType "attrs" (Py.univ.SequenceOf.call.setComponentTypeOf Rfc3280.Attribute.call)])

/-- rfc3281.py:294 -/
def id_aca_group : Py.Obj :=
  (Rfc3281._buildOid [.oid Rfc3281.id_aca, .num 4])

/-- rfc3281.py:296 -/
def id_pe_ac_proxying : Py.Obj :=
  (Rfc3281._buildOid [.oid Rfc3280.id_pe, .num 10])

/-- rfc3281.py:299-300 `class SvceAuthInfo(univ.Sequence)` -/
def SvceAuthInfo__0 : Py.Obj :=
  Py.univ.Sequence

/-- rfc3281.py:303-307 `SvceAuthInfo.componentType = ...` -/
def SvceAuthInfo : Py.Obj :=
  Rfc3281.SvceAuthInfo__0.setComponentType (Py.NamedTypes [
    Py.NamedType "service" Rfc3280.GeneralName.call,
    Py.NamedType "ident" Rfc3280.GeneralName.call,
    Py.OptionalNamedType "authInfo" Py.univ.OctetString.call])

/-- rfc3281.py:310-311 `class IetfAttrSyntax(univ.Sequence)` -/
def IetfAttrSyntax__0 : Py.Obj :=
  Py.univ.Sequence

/-- rfc3281.py:314-329 `IetfAttrSyntax.componentType = ...` -/
def IetfAttrSyntax : Py.Obj :=
  Rfc3281.IetfAttrSyntax__0.setComponentType (Py.NamedTypes [
    Py.OptionalNamedType "policyAuthority" (Rfc3280.GeneralNames.call.implicitTag (Py.Tag .context false 0)),
    Py.NamedType "values" (Py.univ.SequenceOf.call.setComponentTypeOf (Py.univ.Choice.call.setComponentType (Py.NamedTypes [
    Py.NamedType "octets" Py.univ.OctetString.call,
    Py.NamedType "oid" Py.univ.ObjectIdentifier.call,
    Py.NamedType "string" Py.char.UTF8String.call])))])

/-- rfc3281.py:331 -/
def id_aca_encAttrs : Py.Obj :=
  (Rfc3281._buildOid [.oid Rfc3281.id_aca, .num 6])

/-- Modules of this package imported by rfc3281.py, in textual order. -/
def imports : List Py.Ident :=
  [(Py.mod 13 "rfc3280")]

/-- Dictionary operations executed when rfc3281.py is imported, in program order. -/
def effects : List Py.Effect :=
  []

/-- ASN.1 types rfc3281.py binds at module level (final version of each name), plus nested classes. -/
def classes : List (String × Py.Obj) :=
  [("rfc3281.ObjectDigestInfo", Rfc3281.ObjectDigestInfo),
   ("rfc3281.IssuerSerial", Rfc3281.IssuerSerial),
   ("rfc3281.TargetCert", Rfc3281.TargetCert),
   ("rfc3281.Target", Rfc3281.Target),
   ("rfc3281.Targets", Rfc3281.Targets),
   ("rfc3281.ProxyInfo", Rfc3281.ProxyInfo),
   ("rfc3281.ClassList", Rfc3281.ClassList),
   ("rfc3281.SecurityCategory", Rfc3281.SecurityCategory),
   ("rfc3281.Clearance", Rfc3281.Clearance),
   ("rfc3281.AttCertVersion", Rfc3281.AttCertVersion),
   ("rfc3281.AttrSpec", Rfc3281.AttrSpec),
   ("rfc3281.AAControls", Rfc3281.AAControls),
   ("rfc3281.AttCertValidityPeriod", Rfc3281.AttCertValidityPeriod),
   ("rfc3281.V2Form", Rfc3281.V2Form),
   ("rfc3281.AttCertIssuer", Rfc3281.AttCertIssuer),
   ("rfc3281.Holder", Rfc3281.Holder),
   ("rfc3281.AttributeCertificateInfo", Rfc3281.AttributeCertificateInfo),
   ("rfc3281.AttributeCertificate", Rfc3281.AttributeCertificate),
   ("rfc3281.RoleSyntax", Rfc3281.RoleSyntax),
   ("rfc3281.ACClearAttrs", Rfc3281.ACClearAttrs),
   ("rfc3281.SvceAuthInfo", Rfc3281.SvceAuthInfo),
   ("rfc3281.IetfAttrSyntax", Rfc3281.IetfAttrSyntax)]

/-- pyasn1 instances rfc3281.py binds at module level. -/
def objects : List (String × Py.Obj) :=
  [("rfc3281.id_at_role", Rfc3281.id_at_role),
   ("rfc3281.id_pe_aaControls", Rfc3281.id_pe_aaControls),
   ("rfc3281.id_ce_targetInformation", Rfc3281.id_ce_targetInformation),
   ("rfc3281.id_pe_ac_auditIdentity", Rfc3281.id_pe_ac_auditIdentity),
   ("rfc3281.id_aca", Rfc3281.id_aca),
   ("rfc3281.id_at_clearance", Rfc3281.id_at_clearance),
   ("rfc3281.id_aca_authenticationInfo", Rfc3281.id_aca_authenticationInfo),
   ("rfc3281.id_mod", Rfc3281.id_mod),
   ("rfc3281.id_mod_attribute_cert", Rfc3281.id_mod_attribute_cert),
   ("rfc3281.id_aca_accessIdentity", Rfc3281.id_aca_accessIdentity),
   ("rfc3281.id_aca_chargingIdentity", Rfc3281.id_aca_chargingIdentity),
   ("rfc3281.id_aca_group", Rfc3281.id_aca_group),
   ("rfc3281.id_pe_ac_proxying", Rfc3281.id_pe_ac_proxying),
   ("rfc3281.id_aca_encAttrs", Rfc3281.id_aca_encAttrs)]

/-- pyasn1 instances rfc3281.py fills in by item assignment. -/
def protos : List (String × Py.Proto) :=
  []

/-- Every place of rfc3281.py that instantiates a class of the package: where, the class as it is
at that point, and the class as it is when the import has finished. -/
def snapshots : List Py.Snapshot :=
  [⟨"rfc3281.py:46", Rfc3280.AlgorithmIdentifier, Rfc3280.AlgorithmIdentifier⟩,
   ⟨"rfc3281.py:56", Rfc3280.GeneralNames, Rfc3280.GeneralNames⟩,
   ⟨"rfc3281.py:57", Rfc3280.CertificateSerialNumber, Rfc3280.CertificateSerialNumber⟩,
   ⟨"rfc3281.py:58", Rfc3280.UniqueIdentifier, Rfc3280.UniqueIdentifier⟩,
   ⟨"rfc3281.py:67", Rfc3281.IssuerSerial, Rfc3281.IssuerSerial⟩,
   ⟨"rfc3281.py:68", Rfc3280.GeneralName, Rfc3280.GeneralName⟩,
   ⟨"rfc3281.py:69", Rfc3281.ObjectDigestInfo, Rfc3281.ObjectDigestInfo⟩,
   ⟨"rfc3281.py:78", Rfc3280.GeneralName, Rfc3280.GeneralName⟩,
   ⟨"rfc3281.py:80", Rfc3280.GeneralName, Rfc3280.GeneralName⟩,
   ⟨"rfc3281.py:83", Rfc3281.TargetCert, Rfc3281.TargetCert⟩,
   ⟨"rfc3281.py:91", Rfc3281.Target, Rfc3281.Target⟩,
   ⟨"rfc3281.py:98", Rfc3281.Targets, Rfc3281.Targets⟩,
   ⟨"rfc3281.py:142", Rfc3281.ClassList, Rfc3281.ClassList⟩,
   ⟨"rfc3281.py:145", Rfc3281.SecurityCategory, Rfc3281.SecurityCategory⟩,
   ⟨"rfc3281.py:178", Rfc3281.AttrSpec, Rfc3281.AttrSpec⟩,
   ⟨"rfc3281.py:180", Rfc3281.AttrSpec, Rfc3281.AttrSpec⟩,
   ⟨"rfc3281.py:203", Rfc3280.GeneralNames, Rfc3280.GeneralNames⟩,
   ⟨"rfc3281.py:204", Rfc3281.IssuerSerial, Rfc3281.IssuerSerial⟩,
   ⟨"rfc3281.py:206", Rfc3281.ObjectDigestInfo, Rfc3281.ObjectDigestInfo⟩,
   ⟨"rfc3281.py:216", Rfc3280.GeneralNames, Rfc3280.GeneralNames⟩,
   ⟨"rfc3281.py:218", Rfc3281.V2Form, Rfc3281.V2Form⟩,
   ⟨"rfc3281.py:227", Rfc3281.IssuerSerial, Rfc3281.IssuerSerial⟩,
   ⟨"rfc3281.py:229", Rfc3280.GeneralNames, Rfc3280.GeneralNames⟩,
   ⟨"rfc3281.py:231", Rfc3281.ObjectDigestInfo, Rfc3281.ObjectDigestInfo⟩,
   ⟨"rfc3281.py:241", Rfc3281.AttCertVersion, Rfc3281.AttCertVersion⟩,
   ⟨"rfc3281.py:242", Rfc3281.Holder, Rfc3281.Holder⟩,
   ⟨"rfc3281.py:243", Rfc3281.AttCertIssuer, Rfc3281.AttCertIssuer⟩,
   ⟨"rfc3281.py:244", Rfc3280.AlgorithmIdentifier, Rfc3280.AlgorithmIdentifier⟩,
   ⟨"rfc3281.py:245", Rfc3280.CertificateSerialNumber, Rfc3280.CertificateSerialNumber⟩,
   ⟨"rfc3281.py:246", Rfc3281.AttCertValidityPeriod, Rfc3281.AttCertValidityPeriod⟩,
   ⟨"rfc3281.py:247", Rfc3280.Attribute, Rfc3280.Attribute⟩,
   ⟨"rfc3281.py:248", Rfc3280.UniqueIdentifier, Rfc3280.UniqueIdentifier⟩,
   ⟨"rfc3281.py:249", Rfc3280.Extensions, Rfc3280.Extensions⟩,
   ⟨"rfc3281.py:258", Rfc3281.AttributeCertificateInfo, Rfc3281.AttributeCertificateInfo⟩,
   ⟨"rfc3281.py:259", Rfc3280.AlgorithmIdentifier, Rfc3280.AlgorithmIdentifier⟩,
   ⟨"rfc3281.py:275", Rfc3280.GeneralNames, Rfc3280.GeneralNames⟩,
   ⟨"rfc3281.py:278", Rfc3280.GeneralName, Rfc3280.GeneralName⟩,
   ⟨"rfc3281.py:289", Rfc3280.GeneralName, Rfc3280.GeneralName⟩,
   ⟨"rfc3281.py:291", Rfc3280.Attribute, Rfc3280.Attribute⟩,
   ⟨"rfc3281.py:304", Rfc3280.GeneralName, Rfc3280.GeneralName⟩,
   ⟨"rfc3281.py:305", Rfc3280.GeneralName, Rfc3280.GeneralName⟩,
   ⟨"rfc3281.py:316", Rfc3280.GeneralNames, Rfc3280.GeneralNames⟩]

/-- Functions rfc3281.py defines. -/
def builders : List (String × (List Py.OidArg → Py.Obj)) :=
  [("rfc3281._buildOid", Rfc3281._buildOid)]

def asModule : Py.Module :=
  { id := (Py.mod 14 "rfc3281"), imports := imports, effects := effects, classes := classes, objects := objects, protos := protos, snapshots := snapshots, builders := builders }

end Rfc3281
end Verif
