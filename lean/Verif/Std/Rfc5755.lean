import Verif.Spec.Grade
import Verif.Gen.Rfc5755
import Verif.Std.Rfc5280

/-! The ASN.1 of tools/std/rfc5755.asn1 (generated by tools/stdgen.py). -/

namespace Verif
namespace Std
namespace Rfc5755

open Asn1 Spec.X680

/-- `AttCertVersion ::=` -/
def AttCertVersion : Ty :=
  named [("v2", 1)] INTEGER

/-- `IssuerSerial ::=` -/
def IssuerSerial : Ty :=
  SEQUENCE [
    mandatory "issuer" Std.Rfc5280.GeneralNames,
    mandatory "serial" Std.Rfc5280.CertificateSerialNumber,
    optional "issuerUID" Std.Rfc5280.UniqueIdentifier]

/-- `ObjectDigestInfo ::=` -/
def ObjectDigestInfo : Ty :=
  SEQUENCE [
    mandatory "digestedObjectType" (named [("publicKey", 0), ("publicKeyCert", 1), ("otherObjectTypes", 2)] ENUMERATED),
    optional "otherObjectTypeID" OBJECT_IDENTIFIER,
    mandatory "digestAlgorithm" Std.Rfc5280.AlgorithmIdentifier,
    mandatory "objectDigest" BIT_STRING]

/-- `Holder ::=` -/
def Holder : Ty :=
  SEQUENCE [
    optional "baseCertificateID" (implicit .context 0 IssuerSerial),
    optional "entityName" (implicit .context 1 Std.Rfc5280.GeneralNames),
    optional "objectDigestInfo" (implicit .context 2 ObjectDigestInfo)]

/-- `V2Form ::=` -/
def V2Form : Ty :=
  SEQUENCE [
    optional "issuerName" Std.Rfc5280.GeneralNames,
    optional "baseCertificateID" (implicit .context 0 IssuerSerial),
    optional "objectDigestInfo" (implicit .context 1 ObjectDigestInfo)]

/-- `AttCertIssuer ::=` -/
def AttCertIssuer : Ty :=
  CHOICE [
    mandatory "v1Form" Std.Rfc5280.GeneralNames,
    mandatory "v2Form" (implicit .context 0 V2Form)]

/-- `AttCertValidityPeriod ::=` -/
def AttCertValidityPeriod : Ty :=
  SEQUENCE [
    mandatory "notBeforeTime" GeneralizedTime,
    mandatory "notAfterTime" GeneralizedTime]

/-- `AttributeCertificateInfo ::=` -/
def AttributeCertificateInfo : Ty :=
  SEQUENCE [
    mandatory "version" AttCertVersion,
    mandatory "holder" Holder,
    mandatory "issuer" AttCertIssuer,
    mandatory "signature" Std.Rfc5280.AlgorithmIdentifier,
    mandatory "serialNumber" Std.Rfc5280.CertificateSerialNumber,
    mandatory "attrCertValidityPeriod" AttCertValidityPeriod,
    mandatory "attributes" (SEQUENCE_OF Std.Rfc5280.Attribute),
    optional "issuerUniqueID" Std.Rfc5280.UniqueIdentifier,
    optional "extensions" Std.Rfc5280.Extensions]

/-- `AttributeCertificate ::=` -/
def AttributeCertificate : Ty :=
  SEQUENCE [
    mandatory "acinfo" AttributeCertificateInfo,
    mandatory "signatureAlgorithm" Std.Rfc5280.AlgorithmIdentifier,
    mandatory "signatureValue" BIT_STRING]

/-- `TargetCert ::=` -/
def TargetCert : Ty :=
  SEQUENCE [
    mandatory "targetCertificate" IssuerSerial,
    optional "targetName" Std.Rfc5280.GeneralName,
    optional "certDigestInfo" ObjectDigestInfo]

/-- `Target ::=` -/
def Target : Ty :=
  CHOICE [
    mandatory "targetName" (implicit .context 0 Std.Rfc5280.GeneralName),
    mandatory "targetGroup" (implicit .context 1 Std.Rfc5280.GeneralName),
    mandatory "targetCert" (implicit .context 2 TargetCert)]

/-- `Targets ::=` -/
def Targets : Ty :=
  SEQUENCE_OF Target

/-- `IetfAttrSyntax ::=` -/
def IetfAttrSyntax : Ty :=
  SEQUENCE [
    optional "policyAuthority" (implicit .context 0 Std.Rfc5280.GeneralNames),
    mandatory "values" (SEQUENCE_OF (CHOICE [
      mandatory "octets" OCTET_STRING,
      mandatory "oid" OBJECT_IDENTIFIER,
      mandatory "string" UTF8String]))]

/-- `SvceAuthInfo ::=` -/
def SvceAuthInfo : Ty :=
  SEQUENCE [
    mandatory "service" Std.Rfc5280.GeneralName,
    mandatory "ident" Std.Rfc5280.GeneralName,
    optional "authInfo" OCTET_STRING]

/-- `RoleSyntax ::=` -/
def RoleSyntax : Ty :=
  SEQUENCE [
    optional "roleAuthority" (implicit .context 0 Std.Rfc5280.GeneralNames),
    mandatory "roleName" (implicit .context 1 Std.Rfc5280.GeneralName)]

/-- `ClassList ::=` -/
def ClassList : Ty :=
  named [("unmarked", 0), ("unclassified", 1), ("restricted", 2), ("confidential", 3), ("secret", 4), ("topSecret", 5)] BIT_STRING

/-- `SecurityCategory ::=` -/
def SecurityCategory : Ty :=
  SEQUENCE [
    mandatory "type" (implicit .context 0 OBJECT_IDENTIFIER),
    mandatory "value" (explicit .context 1 ANY)]

/-- `Clearance ::=` -/
def Clearance : Ty :=
  SEQUENCE [
    mandatory "policyId" OBJECT_IDENTIFIER,
    default "classList" ClassList (.bits [false, true]),
    optional "securityCategories" (SET_OF SecurityCategory)]

/-- `AttrSpec ::=` -/
def AttrSpec : Ty :=
  SEQUENCE_OF OBJECT_IDENTIFIER

/-- `AAControls ::=` -/
def AAControls : Ty :=
  SEQUENCE [
    optional "pathLenConstraint" (constrained (RANGE_MAX 0) INTEGER),
    optional "permittedAttrs" (implicit .context 0 AttrSpec),
    optional "excludedAttrs" (implicit .context 1 AttrSpec),
    default "permitUnSpecified" BOOLEAN (.int 1)]

/-- `ACClearAttrs ::=` -/
def ACClearAttrs : Ty :=
  SEQUENCE [
    mandatory "acIssuer" Std.Rfc5280.GeneralName,
    mandatory "acSerial" INTEGER,
    mandatory "attrs" (SEQUENCE_OF Std.Rfc5280.Attribute)]

/-- `ProxyInfo ::=` -/
def ProxyInfo : Ty :=
  SEQUENCE_OF Targets

/-- Classes of rfc5755.py and the types of the standard they implement. -/
def entries : List Entry :=
  [⟨"rfc5755.AlgorithmIdentifier", Verif.Rfc5755.AlgorithmIdentifier, Std.Rfc5280.AlgorithmIdentifier, .same, false⟩,
   ⟨"rfc5755.Attribute", Verif.Rfc5755.Attribute, Std.Rfc5280.Attribute, .same, false⟩,
   ⟨"rfc5755.AuthorityInfoAccessSyntax", Verif.Rfc5755.AuthorityInfoAccessSyntax, Std.Rfc5280.AuthorityInfoAccessSyntax, .same, false⟩,
   ⟨"rfc5755.AuthorityKeyIdentifier", Verif.Rfc5755.AuthorityKeyIdentifier, Std.Rfc5280.AuthorityKeyIdentifier, .same, false⟩,
   ⟨"rfc5755.CertificateSerialNumber", Verif.Rfc5755.CertificateSerialNumber, Std.Rfc5280.CertificateSerialNumber, .same, false⟩,
   ⟨"rfc5755.CRLDistributionPoints", Verif.Rfc5755.CRLDistributionPoints, Std.Rfc5280.CRLDistributionPoints, .same, false⟩,
   ⟨"rfc5755.Extensions", Verif.Rfc5755.Extensions, Std.Rfc5280.Extensions, .same, false⟩,
   ⟨"rfc5755.Extension", Verif.Rfc5755.Extension, Std.Rfc5280.Extension, .same, false⟩,
   ⟨"rfc5755.GeneralNames", Verif.Rfc5755.GeneralNames, Std.Rfc5280.GeneralNames, .same, false⟩,
   ⟨"rfc5755.GeneralName", Verif.Rfc5755.GeneralName, Std.Rfc5280.GeneralName, .same, false⟩,
   ⟨"rfc5755.UniqueIdentifier", Verif.Rfc5755.UniqueIdentifier, Std.Rfc5280.UniqueIdentifier, .same, false⟩,
   ⟨"rfc5755.AttCertVersion", Verif.Rfc5755.AttCertVersion, AttCertVersion, .same, false⟩,
   ⟨"rfc5755.IssuerSerial", Verif.Rfc5755.IssuerSerial, IssuerSerial, .same, false⟩,
   ⟨"rfc5755.ObjectDigestInfo", Verif.Rfc5755.ObjectDigestInfo, ObjectDigestInfo, .same, false⟩,
   ⟨"rfc5755.Holder", Verif.Rfc5755.Holder, Holder, .same, false⟩,
   ⟨"rfc5755.V2Form", Verif.Rfc5755.V2Form, V2Form, .same, false⟩,
   ⟨"rfc5755.AttCertIssuer", Verif.Rfc5755.AttCertIssuer, AttCertIssuer, .same, false⟩,
   ⟨"rfc5755.AttCertValidityPeriod", Verif.Rfc5755.AttCertValidityPeriod, AttCertValidityPeriod, .same, false⟩,
   ⟨"rfc5755.AttributeCertificateInfo", Verif.Rfc5755.AttributeCertificateInfo, AttributeCertificateInfo, .same, false⟩,
   ⟨"rfc5755.AttributeCertificate", Verif.Rfc5755.AttributeCertificate, AttributeCertificate, .same, false⟩,
   ⟨"rfc5755.TargetCert", Verif.Rfc5755.TargetCert, TargetCert, .same, false⟩,
   ⟨"rfc5755.Target", Verif.Rfc5755.Target, Target, .same, false⟩,
   ⟨"rfc5755.Targets", Verif.Rfc5755.Targets, Targets, .same, false⟩,
   ⟨"rfc5755.ProxyInfo", Verif.Rfc5755.ProxyInfo, ProxyInfo, .same, false⟩,
   ⟨"rfc5755.AttrSpec", Verif.Rfc5755.AttrSpec, AttrSpec, .same, false⟩,
   ⟨"rfc5755.AAControls", Verif.Rfc5755.AAControls, AAControls, .same, false⟩,
   ⟨"rfc5755.SvceAuthInfo", Verif.Rfc5755.SvceAuthInfo, SvceAuthInfo, .same, false⟩,
   ⟨"rfc5755.IetfAttrSyntax", Verif.Rfc5755.IetfAttrSyntax, IetfAttrSyntax, .same, false⟩,
   ⟨"rfc5755.RoleSyntax", Verif.Rfc5755.RoleSyntax, RoleSyntax, .same, false⟩,
   ⟨"rfc5755.ClassList", Verif.Rfc5755.ClassList, ClassList, .same, false⟩,
   ⟨"rfc5755.SecurityCategory", Verif.Rfc5755.SecurityCategory, SecurityCategory, (.rewritten (.record (Vals.cons (.oid [1, 3]) (Vals.cons (.octets [5, 0]) (Vals.nil))))), false⟩,
   ⟨"rfc5755.Clearance", Verif.Rfc5755.Clearance, Clearance, (.rewritten (.record (Vals.cons (.oid [1, 3]) (Vals.cons (.bits [false, true]) (Vals.cons (.list (Vals.cons (.record (Vals.cons (.oid [1, 3]) (Vals.cons (.octets [5, 0]) (Vals.nil)))) (Vals.nil))) (Vals.nil)))))), false⟩,
   ⟨"rfc5755.ACClearAttrs", Verif.Rfc5755.ACClearAttrs, ACClearAttrs, .same, false⟩]

/-- Classes of rfc5755.py the transcription of the standard has no type for. -/
def beyond : List String :=
  ["rfc5755.ContentInfo",
   "rfc5755.Clearance_rfc3281"]

/-- Constants of rfc5755.py and the values the standard gives them. -/
def constants : List Constant :=
  [⟨"rfc5755.id_pkix", Verif.Rfc5755.id_pkix, OBJECT_IDENTIFIER, .oid [1, 3, 6, 1, 5, 5, 7], true⟩,
   ⟨"rfc5755.id_pe", Verif.Rfc5755.id_pe, OBJECT_IDENTIFIER, .oid [1, 3, 6, 1, 5, 5, 7, 1], true⟩,
   ⟨"rfc5755.id_kp", Verif.Rfc5755.id_kp, OBJECT_IDENTIFIER, .oid [1, 3, 6, 1, 5, 5, 7, 3], true⟩,
   ⟨"rfc5755.id_aca", Verif.Rfc5755.id_aca, OBJECT_IDENTIFIER, .oid [1, 3, 6, 1, 5, 5, 7, 10], true⟩,
   ⟨"rfc5755.id_ad", Verif.Rfc5755.id_ad, OBJECT_IDENTIFIER, .oid [1, 3, 6, 1, 5, 5, 7, 48], true⟩,
   ⟨"rfc5755.id_at", Verif.Rfc5755.id_at, OBJECT_IDENTIFIER, .oid [2, 5, 4], true⟩,
   ⟨"rfc5755.id_ce", Verif.Rfc5755.id_ce, OBJECT_IDENTIFIER, .oid [2, 5, 29], true⟩,
   ⟨"rfc5755.id_pe_ac_auditIdentity", Verif.Rfc5755.id_pe_ac_auditIdentity, OBJECT_IDENTIFIER, .oid [1, 3, 6, 1, 5, 5, 7, 1, 4], true⟩,
   ⟨"rfc5755.id_ce_noRevAvail", Verif.Rfc5755.id_ce_noRevAvail, OBJECT_IDENTIFIER, .oid [2, 5, 29, 56], true⟩,
   ⟨"rfc5755.id_ce_targetInformation", Verif.Rfc5755.id_ce_targetInformation, OBJECT_IDENTIFIER, .oid [2, 5, 29, 55], true⟩,
   ⟨"rfc5755.id_pe_ac_proxying", Verif.Rfc5755.id_pe_ac_proxying, OBJECT_IDENTIFIER, .oid [1, 3, 6, 1, 5, 5, 7, 1, 10], true⟩,
   ⟨"rfc5755.id_pe_aaControls", Verif.Rfc5755.id_pe_aaControls, OBJECT_IDENTIFIER, .oid [1, 3, 6, 1, 5, 5, 7, 1, 6], true⟩,
   ⟨"rfc5755.id_aca_authenticationInfo", Verif.Rfc5755.id_aca_authenticationInfo, OBJECT_IDENTIFIER, .oid [1, 3, 6, 1, 5, 5, 7, 10, 1], true⟩,
   ⟨"rfc5755.id_aca_accessIdentity", Verif.Rfc5755.id_aca_accessIdentity, OBJECT_IDENTIFIER, .oid [1, 3, 6, 1, 5, 5, 7, 10, 2], true⟩,
   ⟨"rfc5755.id_aca_chargingIdentity", Verif.Rfc5755.id_aca_chargingIdentity, OBJECT_IDENTIFIER, .oid [1, 3, 6, 1, 5, 5, 7, 10, 3], true⟩,
   ⟨"rfc5755.id_aca_group", Verif.Rfc5755.id_aca_group, OBJECT_IDENTIFIER, .oid [1, 3, 6, 1, 5, 5, 7, 10, 4], true⟩,
   ⟨"rfc5755.id_at_role", Verif.Rfc5755.id_at_role, OBJECT_IDENTIFIER, .oid [2, 5, 4, 72], true⟩,
   ⟨"rfc5755.id_at_clearance", Verif.Rfc5755.id_at_clearance, OBJECT_IDENTIFIER, .oid [2, 5, 4, 55], true⟩,
   ⟨"rfc5755.id_aca_encAttrs", Verif.Rfc5755.id_aca_encAttrs, OBJECT_IDENTIFIER, .oid [1, 3, 6, 1, 5, 5, 7, 10, 6], true⟩]

/-- Constants of rfc5755.py the transcription of the standard has no value for. -/
def others : List String :=
  ["rfc5755.id_at_clearance_rfc3281"]

def standard : Standard := ⟨Verif.Rfc5755.asModule, entries, beyond, constants, others⟩

end Rfc5755
end Std
end Verif
