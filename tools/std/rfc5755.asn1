-- RFC 5755, appendix B.
PKIXAttributeCertificate DEFINITIONS IMPLICIT TAGS ::= BEGIN
IMPORTS Attribute, AlgorithmIdentifier, CertificateSerialNumber, Extensions, UniqueIdentifier, GeneralName, GeneralNames,
  Extension, AuthorityInfoAccessSyntax, AuthorityKeyIdentifier, CRLDistributionPoints,
  id-pkix, id-pe, id-kp, id-ad, id-at, id-ce FROM rfc5280;
id-pe-ac-auditIdentity OBJECT IDENTIFIER ::= { id-pe 4 }
id-pe-aaControls OBJECT IDENTIFIER ::= { id-pe 6 }
id-pe-ac-proxying OBJECT IDENTIFIER ::= { id-pe 10 }
id-ce-targetInformation OBJECT IDENTIFIER ::= { id-ce 55 }
id-aca OBJECT IDENTIFIER ::= { id-pkix 10 }
id-aca-authenticationInfo OBJECT IDENTIFIER ::= { id-aca 1 }
id-aca-accessIdentity OBJECT IDENTIFIER ::= { id-aca 2 }
id-aca-chargingIdentity OBJECT IDENTIFIER ::= { id-aca 3 }
id-aca-group OBJECT IDENTIFIER ::= { id-aca 4 }
id-aca-encAttrs OBJECT IDENTIFIER ::= { id-aca 6 }
id-at-role OBJECT IDENTIFIER ::= { id-at 72 }
id-at-clearance OBJECT IDENTIFIER ::= { joint-iso-ccitt(2) ds(5) attributeType(4) clearance(55) }
AttributeCertificate ::= SEQUENCE {
  acinfo AttributeCertificateInfo,
  signatureAlgorithm AlgorithmIdentifier,
  signatureValue BIT STRING }
AttributeCertificateInfo ::= SEQUENCE {
  version AttCertVersion,
  holder Holder,
  issuer AttCertIssuer,
  signature AlgorithmIdentifier,
  serialNumber CertificateSerialNumber,
  attrCertValidityPeriod AttCertValidityPeriod,
  attributes SEQUENCE OF Attribute,
  issuerUniqueID UniqueIdentifier OPTIONAL,
  extensions Extensions OPTIONAL }
AttCertVersion ::= INTEGER { v2(1) }
Holder ::= SEQUENCE {
  baseCertificateID [0] IssuerSerial OPTIONAL,
  entityName [1] GeneralNames OPTIONAL,
  objectDigestInfo [2] ObjectDigestInfo OPTIONAL }
ObjectDigestInfo ::= SEQUENCE {
  digestedObjectType ENUMERATED { publicKey(0), publicKeyCert(1), otherObjectTypes(2) },
  otherObjectTypeID OBJECT IDENTIFIER OPTIONAL,
  digestAlgorithm AlgorithmIdentifier,
  objectDigest BIT STRING }
AttCertIssuer ::= CHOICE {
  v1Form GeneralNames,
  v2Form [0] V2Form }
V2Form ::= SEQUENCE {
  issuerName GeneralNames OPTIONAL,
  baseCertificateID [0] IssuerSerial OPTIONAL,
  objectDigestInfo [1] ObjectDigestInfo OPTIONAL }
IssuerSerial ::= SEQUENCE {
  issuer GeneralNames,
  serial CertificateSerialNumber,
  issuerUID UniqueIdentifier OPTIONAL }
AttCertValidityPeriod ::= SEQUENCE {
  notBeforeTime GeneralizedTime,
  notAfterTime GeneralizedTime }
Targets ::= SEQUENCE OF Target
Target ::= CHOICE {
  targetName [0] GeneralName,
  targetGroup [1] GeneralName,
  targetCert [2] TargetCert }
TargetCert ::= SEQUENCE {
  targetCertificate IssuerSerial,
  targetName GeneralName OPTIONAL,
  certDigestInfo ObjectDigestInfo OPTIONAL }
IetfAttrSyntax ::= SEQUENCE {
  policyAuthority [0] GeneralNames OPTIONAL,
  values SEQUENCE OF CHOICE {
    octets OCTET STRING,
    oid OBJECT IDENTIFIER,
    string UTF8String } }
SvceAuthInfo ::= SEQUENCE {
  service GeneralName,
  ident GeneralName,
  authInfo OCTET STRING OPTIONAL }
RoleSyntax ::= SEQUENCE {
  roleAuthority [0] GeneralNames OPTIONAL,
  roleName [1] GeneralName }
Clearance ::= SEQUENCE {
  policyId OBJECT IDENTIFIER,
  classList ClassList DEFAULT { unclassified },
  securityCategories SET OF SecurityCategory OPTIONAL }
ClassList ::= BIT STRING { unmarked(0), unclassified(1), restricted(2), confidential(3), secret(4), topSecret(5) }
SecurityCategory ::= SEQUENCE {
  type [0] IMPLICIT OBJECT IDENTIFIER,
  value [1] EXPLICIT ANY DEFINED BY type }
AAControls ::= SEQUENCE {
  pathLenConstraint INTEGER (0..MAX) OPTIONAL,
  permittedAttrs [0] AttrSpec OPTIONAL,
  excludedAttrs [1] AttrSpec OPTIONAL,
  permitUnSpecified BOOLEAN DEFAULT TRUE }
AttrSpec ::= SEQUENCE OF OBJECT IDENTIFIER
ACClearAttrs ::= SEQUENCE {
  acIssuer GeneralName,
  acSerial INTEGER,
  attrs SEQUENCE OF Attribute }
ProxyInfo ::= SEQUENCE OF Targets
id-ce-noRevAvail OBJECT IDENTIFIER ::= { id-ce 56 }
END
