PKIX1Explicit88 DEFINITIONS EXPLICIT TAGS ::= BEGIN
Package-UniversalString ::= UniversalString
Package-BMPString ::= BMPString
Package-UTF8String ::= UTF8String
DSAPrivateKey ::= SEQUENCE {
  version INTEGER { v1(0) },
  p INTEGER,
  q INTEGER,
  g INTEGER,
  public INTEGER,
  private INTEGER }
E163-4-address ::= SEQUENCE {
  number [0] NumericString (SIZE (1..ub-e163-4-number-length)),
  sub-address [1] NumericString (SIZE (1..ub-e163-4-sub-address-length)) OPTIONAL }
PolicyMapping ::= SEQUENCE {
  issuerDomainPolicy CertPolicyId,
  subjectDomainPolicy CertPolicyId }
RevokedCertificate ::= SEQUENCE {
  userCertificate CertificateSerialNumber,
  revocationDate Time,
  crlEntryExtensions Extensions OPTIONAL }
Attribute ::= SEQUENCE {
  type AttributeType,
  vals SET OF AttributeValue }
Name ::= CHOICE { RDNSequence }
RelativeDistinguishedName ::= SET OF AttributeTypeAndValue
DirectoryString ::= CHOICE {
  teletexString TeletexString (SIZE (1..MAX)),
  printableString PrintableString (SIZE (1..MAX)),
  universalString UniversalString (SIZE (1..MAX)),
  utf8String UTF8String (SIZE (1..MAX)),
  bmpString BMPString (SIZE (1..MAX)),
  ia5String IA5String (SIZE (1..MAX)) }
DomainParameters ::= SEQUENCE {
  p INTEGER,
  g INTEGER,
  q INTEGER,
  j INTEGER,
  validationParms ValidationParms OPTIONAL }
-- Sizes where ranges are meant.
ExtensionAttribute ::= SEQUENCE {
  extension-attribute-type [0] INTEGER (SIZE (0..ub-extension-attributes)),
  extension-attribute-value [1] ANY DEFINED BY extension-attribute-type }
TerminalType ::= INTEGER {
  telex(3), teletelex(4), g3-facsimile(5), g4-facsimile(6), ia5-terminal(7), videotex(8) } (SIZE (0..ub-integer-options))
SkipCerts ::= INTEGER (SIZE (0..MAX))
CRLNumber ::= INTEGER (SIZE (0..MAX))
UnformattedPostalAddress ::= SET {
  printable-address SEQUENCE OF PrintableString (SIZE (1..ub-pds-parameter-length)) (SIZE (1..ub-pds-physical-address-lines)) OPTIONAL,
  teletex-string TeletexString (SIZE (1..ub-unformatted-address-length)) OPTIONAL }
PresentationAddress ::= SEQUENCE {
  pSelector [0] OCTET STRING OPTIONAL,
  sSelector [1] OCTET STRING OPTIONAL,
  tSelector [2] OCTET STRING OPTIONAL,
  nAddresses [3] SET SIZE (1..MAX) OF OCTET STRING OPTIONAL }
TeletexDomainDefinedAttribute ::= SEQUENCE {
  type TeletexString (SIZE (1..ub-domain-defined-attribute-type-length)),
  value TeletexString }
-- No defaults.
IssuingDistributionPoint ::= SEQUENCE {
  distributionPoint [0] IMPLICIT DistributionPointName OPTIONAL,
  onlyContainsUserCerts [1] IMPLICIT BOOLEAN,
  onlyContainsCACerts [2] IMPLICIT BOOLEAN,
  onlySomeReasons [3] IMPLICIT ReasonFlags OPTIONAL,
  indirectCRL [4] IMPLICIT BOOLEAN }
END
