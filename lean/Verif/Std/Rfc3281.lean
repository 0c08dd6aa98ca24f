import Verif.Spec.Grade
import Verif.Gen.Rfc3281
import Verif.Std.Rfc3280

/-! The ASN.1 of tools/std/rfc3281.asn1 (generated by tools/stdgen.py). -/

namespace Verif
namespace Std
namespace Rfc3281

open Asn1 Spec.X680

/-- `AttCertVersion ::=` -/
def AttCertVersion : Ty :=
  named [("v2", 1)] INTEGER

/-- `IssuerSerial ::=` -/
def IssuerSerial : Ty :=
  SEQUENCE [
    mandatory "issuer" Std.Rfc3280.GeneralNames,
    mandatory "serial" Std.Rfc3280.CertificateSerialNumber,
    optional "issuerUID" Std.Rfc3280.UniqueIdentifier]

/-- `ObjectDigestInfo ::=` -/
def ObjectDigestInfo : Ty :=
  SEQUENCE [
    mandatory "digestedObjectType" (named [("publicKey", 0), ("publicKeyCert", 1), ("otherObjectTypes", 2)] ENUMERATED),
    optional "otherObjectTypeID" OBJECT_IDENTIFIER,
    mandatory "digestAlgorithm" Std.Rfc3280.AlgorithmIdentifier,
    mandatory "objectDigest" BIT_STRING]

/-- `Holder ::=` -/
def Holder : Ty :=
  SEQUENCE [
    optional "baseCertificateID" (implicit .context 0 IssuerSerial),
    optional "entityName" (implicit .context 1 Std.Rfc3280.GeneralNames),
    optional "objectDigestInfo" (implicit .context 2 ObjectDigestInfo)]

/-- `V2Form ::=` -/
def V2Form : Ty :=
  SEQUENCE [
    optional "issuerName" Std.Rfc3280.GeneralNames,
    optional "baseCertificateID" (implicit .context 0 IssuerSerial),
    optional "objectDigestInfo" (implicit .context 1 ObjectDigestInfo)]

/-- `AttCertIssuer ::=` -/
def AttCertIssuer : Ty :=
  CHOICE [
    mandatory "v1Form" Std.Rfc3280.GeneralNames,
    mandatory "v2Form" (implicit .context 0 V2Form)]

/-- `AttCertValidityPeriod ::=` -/
def AttCertValidityPeriod : Ty :=
  SEQUENCE [
    mandatory "notBeforeTime" GeneralizedTime,
    mandatory "notAfterTime" GeneralizedTime]

/-- `AttributeCertificateInfo ::=` -/
def AttributeCertificateInfo : Ty :=
  SEQUENCE [
    mandatory "version" AttCertVersion,
    mandatory "holder" Holder,
    mandatory "issuer" AttCertIssuer,
    mandatory "signature" Std.Rfc3280.AlgorithmIdentifier,
    mandatory "serialNumber" Std.Rfc3280.CertificateSerialNumber,
    mandatory "attrCertValidityPeriod" AttCertValidityPeriod,
    mandatory "attributes" (SEQUENCE_OF Std.Rfc3280.Attribute),
    optional "issuerUniqueID" Std.Rfc3280.UniqueIdentifier,
    optional "extensions" Std.Rfc3280.Extensions]

/-- `AttributeCertificate ::=` -/
def AttributeCertificate : Ty :=
  SEQUENCE [
    mandatory "acinfo" AttributeCertificateInfo,
    mandatory "signatureAlgorithm" Std.Rfc3280.AlgorithmIdentifier,
    mandatory "signatureValue" BIT_STRING]

/-- `TargetCert ::=` -/
def TargetCert : Ty :=
  SEQUENCE [
    mandatory "targetCertificate" IssuerSerial,
    optional "targetName" Std.Rfc3280.GeneralName,
    optional "certDigestInfo" ObjectDigestInfo]

/-- `Target ::=` -/
def Target : Ty :=
  CHOICE [
    mandatory "targetName" (implicit .context 0 Std.Rfc3280.GeneralName),
    mandatory "targetGroup" (implicit .context 1 Std.Rfc3280.GeneralName),
    mandatory "targetCert" (implicit .context 2 TargetCert)]

/-- `Targets ::=` -/
def Targets : Ty :=
  SEQUENCE_OF Target

/-- `IetfAttrSyntax ::=` -/
def IetfAttrSyntax : Ty :=
  SEQUENCE [
    optional "policyAuthority" (implicit .context 0 Std.Rfc3280.GeneralNames),
    mandatory "values" (SEQUENCE_OF (CHOICE [
      mandatory "octets" OCTET_STRING,
      mandatory "oid" OBJECT_IDENTIFIER,
      mandatory "string" UTF8String]))]

/-- `SvceAuthInfo ::=` -/
def SvceAuthInfo : Ty :=
  SEQUENCE [
    mandatory "service" Std.Rfc3280.GeneralName,
    mandatory "ident" Std.Rfc3280.GeneralName,
    optional "authInfo" OCTET_STRING]

/-- `RoleSyntax ::=` -/
def RoleSyntax : Ty :=
  SEQUENCE [
    optional "roleAuthority" (implicit .context 0 Std.Rfc3280.GeneralNames),
    mandatory "roleName" (implicit .context 1 Std.Rfc3280.GeneralName)]

/-- `ClassList ::=` -/
def ClassList : Ty :=
  named [("unmarked", 0), ("unclassified", 1), ("restricted", 2), ("confidential", 3), ("secret", 4), ("topSecret", 5)] BIT_STRING

/-- `SecurityCategory ::=` -/
def SecurityCategory : Ty :=
  SEQUENCE [
    mandatory "type" (implicit .context 0 OBJECT_IDENTIFIER),
    mandatory "value" (implicit .context 1 ANY)]

/-- `Clearance ::=` -/
def Clearance : Ty :=
  SEQUENCE [
    mandatory "policyId" (implicit .context 0 OBJECT_IDENTIFIER),
    default "classList" (implicit .context 1 ClassList) (.bits [false, true]),
    optional "securityCategories" (implicit .context 2 (SET_OF SecurityCategory))]

/-- `AttrSpec ::=` -/
def AttrSpec : Ty :=
  SEQUENCE_OF OBJECT_IDENTIFIER

/-- `AAControls ::=` -/
def AAControls : Ty :=
  SEQUENCE [
    optional "pathLenConstraint" (constrained (RANGE_MAX 0) INTEGER),
    optional "permittedAttrs" (implicit .context 0 AttrSpec),
    optional "excludedAttrs" (implicit .context 1 AttrSpec),
    default "permitUnSpecified" BOOLEAN (.int 1)]

/-- `ACClearAttrs ::=` -/
def ACClearAttrs : Ty :=
  SEQUENCE [
    mandatory "acIssuer" Std.Rfc3280.GeneralName,
    mandatory "acSerial" INTEGER,
    mandatory "attrs" (SEQUENCE_OF Std.Rfc3280.Attribute)]

/-- `ProxyInfo ::=` -/
def ProxyInfo : Ty :=
  SEQUENCE_OF Targets

/-- Classes of rfc3281.py and the types of the standard they implement. -/
def entries : List Entry :=
  [⟨"rfc3281.ObjectDigestInfo", Verif.Rfc3281.ObjectDigestInfo, ObjectDigestInfo, .same, false⟩,
   ⟨"rfc3281.IssuerSerial", Verif.Rfc3281.IssuerSerial, IssuerSerial, .same, false⟩,
   ⟨"rfc3281.TargetCert", Verif.Rfc3281.TargetCert, TargetCert, .same, false⟩,
   ⟨"rfc3281.Target", Verif.Rfc3281.Target, Target, .same, false⟩,
   ⟨"rfc3281.Targets", Verif.Rfc3281.Targets, Targets, .same, false⟩,
   ⟨"rfc3281.ProxyInfo", Verif.Rfc3281.ProxyInfo, ProxyInfo, .same, false⟩,
   ⟨"rfc3281.ClassList", Verif.Rfc3281.ClassList, ClassList, .same, false⟩,
   ⟨"rfc3281.SecurityCategory", Verif.Rfc3281.SecurityCategory, SecurityCategory, (.rewritten (.record (Vals.cons (.oid [1, 3]) (Vals.cons (.octets [5, 0]) (Vals.nil))))), false⟩,
   ⟨"rfc3281.Clearance", Verif.Rfc3281.Clearance, Clearance, (.rewritten (.record (Vals.cons (.oid [1, 3]) (Vals.cons (.bits [false, true]) (Vals.cons (.list (Vals.cons (.record (Vals.cons (.oid [1, 3]) (Vals.cons (.octets [5, 0]) (Vals.nil)))) (Vals.nil))) (Vals.nil)))))), false⟩,
   ⟨"rfc3281.AttCertVersion", Verif.Rfc3281.AttCertVersion, AttCertVersion, .same, false⟩,
   ⟨"rfc3281.AttrSpec", Verif.Rfc3281.AttrSpec, AttrSpec, .same, false⟩,
   ⟨"rfc3281.AAControls", Verif.Rfc3281.AAControls, AAControls, .same, false⟩,
   ⟨"rfc3281.AttCertValidityPeriod", Verif.Rfc3281.AttCertValidityPeriod, AttCertValidityPeriod, .same, false⟩,
   ⟨"rfc3281.V2Form", Verif.Rfc3281.V2Form, V2Form, .same, false⟩,
   ⟨"rfc3281.AttCertIssuer", Verif.Rfc3281.AttCertIssuer, AttCertIssuer, .same, false⟩,
   ⟨"rfc3281.Holder", Verif.Rfc3281.Holder, Holder, .same, false⟩,
   ⟨"rfc3281.AttributeCertificateInfo", Verif.Rfc3281.AttributeCertificateInfo, AttributeCertificateInfo, .same, false⟩,
   ⟨"rfc3281.AttributeCertificate", Verif.Rfc3281.AttributeCertificate, AttributeCertificate, .same, false⟩,
   ⟨"rfc3281.RoleSyntax", Verif.Rfc3281.RoleSyntax, RoleSyntax, .same, false⟩,
   ⟨"rfc3281.ACClearAttrs", Verif.Rfc3281.ACClearAttrs, ACClearAttrs, .same, false⟩,
   ⟨"rfc3281.SvceAuthInfo", Verif.Rfc3281.SvceAuthInfo, SvceAuthInfo, .same, false⟩,
   ⟨"rfc3281.IetfAttrSyntax", Verif.Rfc3281.IetfAttrSyntax, IetfAttrSyntax, .same, false⟩]

/-- Classes of rfc3281.py the transcription of the standard has no type for. -/
def beyond : List String :=
  []

/-- Constants of rfc3281.py and the values the standard gives them. -/
def constants : List Constant :=
  [⟨"rfc3281.id_at_role", Verif.Rfc3281.id_at_role, OBJECT_IDENTIFIER, .oid [2, 5, 4, 72], true⟩,
   ⟨"rfc3281.id_pe_aaControls", Verif.Rfc3281.id_pe_aaControls, OBJECT_IDENTIFIER, .oid [1, 3, 6, 1, 5, 5, 7, 1, 6], true⟩,
   ⟨"rfc3281.id_ce_targetInformation", Verif.Rfc3281.id_ce_targetInformation, OBJECT_IDENTIFIER, .oid [2, 5, 29, 55], true⟩,
   ⟨"rfc3281.id_pe_ac_auditIdentity", Verif.Rfc3281.id_pe_ac_auditIdentity, OBJECT_IDENTIFIER, .oid [1, 3, 6, 1, 5, 5, 7, 1, 4], true⟩,
   ⟨"rfc3281.id_aca", Verif.Rfc3281.id_aca, OBJECT_IDENTIFIER, .oid [1, 3, 6, 1, 5, 5, 7, 10], true⟩,
   ⟨"rfc3281.id_at_clearance", Verif.Rfc3281.id_at_clearance, OBJECT_IDENTIFIER, .oid [2, 5, 1, 5, 55], true⟩,
   ⟨"rfc3281.id_aca_authenticationInfo", Verif.Rfc3281.id_aca_authenticationInfo, OBJECT_IDENTIFIER, .oid [1, 3, 6, 1, 5, 5, 7, 10, 1], true⟩,
   ⟨"rfc3281.id_mod", Verif.Rfc3281.id_mod, OBJECT_IDENTIFIER, .oid [1, 3, 6, 1, 5, 5, 7, 0], true⟩,
   ⟨"rfc3281.id_mod_attribute_cert", Verif.Rfc3281.id_mod_attribute_cert, OBJECT_IDENTIFIER, .oid [1, 3, 6, 1, 5, 5, 7, 0, 12], true⟩,
   ⟨"rfc3281.id_aca_accessIdentity", Verif.Rfc3281.id_aca_accessIdentity, OBJECT_IDENTIFIER, .oid [1, 3, 6, 1, 5, 5, 7, 10, 2], true⟩,
   ⟨"rfc3281.id_aca_chargingIdentity", Verif.Rfc3281.id_aca_chargingIdentity, OBJECT_IDENTIFIER, .oid [1, 3, 6, 1, 5, 5, 7, 10, 3], true⟩,
   ⟨"rfc3281.id_aca_group", Verif.Rfc3281.id_aca_group, OBJECT_IDENTIFIER, .oid [1, 3, 6, 1, 5, 5, 7, 10, 4], true⟩,
   ⟨"rfc3281.id_pe_ac_proxying", Verif.Rfc3281.id_pe_ac_proxying, OBJECT_IDENTIFIER, .oid [1, 3, 6, 1, 5, 5, 7, 1, 10], true⟩,
   ⟨"rfc3281.id_aca_encAttrs", Verif.Rfc3281.id_aca_encAttrs, OBJECT_IDENTIFIER, .oid [1, 3, 6, 1, 5, 5, 7, 10, 6], true⟩]

/-- Constants of rfc3281.py the transcription of the standard has no value for. -/
def others : List String :=
  []

def standard : Standard := ⟨Verif.Rfc3281.asModule, entries, beyond, constants, others⟩

end Rfc3281
end Std
end Verif
