-- RFC 2459, appendix A.1 and A.2 (written from the standard, not from the package).
PKIX1Explicit88 DEFINITIONS EXPLICIT TAGS ::= BEGIN

id-pkix OBJECT IDENTIFIER ::= { iso(1) identified-organization(3) dod(6) internet(1) security(5) mechanisms(5) pkix(7) }
id-pe OBJECT IDENTIFIER ::= { id-pkix 1 }
id-qt OBJECT IDENTIFIER ::= { id-pkix 2 }
id-kp OBJECT IDENTIFIER ::= { id-pkix 3 }
id-ad OBJECT IDENTIFIER ::= { id-pkix 48 }
id-qt-cps OBJECT IDENTIFIER ::= { id-qt 1 }
id-qt-unotice OBJECT IDENTIFIER ::= { id-qt 2 }
id-ad-ocsp OBJECT IDENTIFIER ::= { id-ad 1 }
id-ad-caIssuers OBJECT IDENTIFIER ::= { id-ad 2 }

Attribute ::= SEQUENCE {
  type AttributeType,
  values SET OF AttributeValue }
AttributeType ::= OBJECT IDENTIFIER
AttributeValue ::= ANY
AttributeTypeAndValue ::= SEQUENCE {
  type AttributeType,
  value AttributeValue }

id-at OBJECT IDENTIFIER ::= { joint-iso-ccitt(2) ds(5) 4 }
id-at-name OBJECT IDENTIFIER ::= { id-at 41 }
id-at-surname OBJECT IDENTIFIER ::= { id-at 4 }
id-at-givenName OBJECT IDENTIFIER ::= { id-at 42 }
id-at-initials OBJECT IDENTIFIER ::= { id-at 43 }
id-at-generationQualifier OBJECT IDENTIFIER ::= { id-at 44 }
X520name ::= CHOICE {
  teletexString TeletexString (SIZE (1..ub-name)),
  printableString PrintableString (SIZE (1..ub-name)),
  universalString UniversalString (SIZE (1..ub-name)),
  utf8String UTF8String (SIZE (1..ub-name)),
  bmpString BMPString (SIZE (1..ub-name)) }
id-at-commonName OBJECT IDENTIFIER ::= { id-at 3 }
X520CommonName ::= CHOICE {
  teletexString TeletexString (SIZE (1..ub-common-name)),
  printableString PrintableString (SIZE (1..ub-common-name)),
  universalString UniversalString (SIZE (1..ub-common-name)),
  utf8String UTF8String (SIZE (1..ub-common-name)),
  bmpString BMPString (SIZE (1..ub-common-name)) }
id-at-localityName OBJECT IDENTIFIER ::= { id-at 7 }
X520LocalityName ::= CHOICE {
  teletexString TeletexString (SIZE (1..ub-locality-name)),
  printableString PrintableString (SIZE (1..ub-locality-name)),
  universalString UniversalString (SIZE (1..ub-locality-name)),
  utf8String UTF8String (SIZE (1..ub-locality-name)),
  bmpString BMPString (SIZE (1..ub-locality-name)) }
id-at-stateOrProvinceName OBJECT IDENTIFIER ::= { id-at 8 }
X520StateOrProvinceName ::= CHOICE {
  teletexString TeletexString (SIZE (1..ub-state-name)),
  printableString PrintableString (SIZE (1..ub-state-name)),
  universalString UniversalString (SIZE (1..ub-state-name)),
  utf8String UTF8String (SIZE (1..ub-state-name)),
  bmpString BMPString (SIZE (1..ub-state-name)) }
id-at-organizationName OBJECT IDENTIFIER ::= { id-at 10 }
X520OrganizationName ::= CHOICE {
  teletexString TeletexString (SIZE (1..ub-organization-name)),
  printableString PrintableString (SIZE (1..ub-organization-name)),
  universalString UniversalString (SIZE (1..ub-organization-name)),
  utf8String UTF8String (SIZE (1..ub-organization-name)),
  bmpString BMPString (SIZE (1..ub-organization-name)) }
id-at-organizationalUnitName OBJECT IDENTIFIER ::= { id-at 11 }
X520OrganizationalUnitName ::= CHOICE {
  teletexString TeletexString (SIZE (1..ub-organizational-unit-name)),
  printableString PrintableString (SIZE (1..ub-organizational-unit-name)),
  universalString UniversalString (SIZE (1..ub-organizational-unit-name)),
  utf8String UTF8String (SIZE (1..ub-organizational-unit-name)),
  bmpString BMPString (SIZE (1..ub-organizational-unit-name)) }
id-at-title OBJECT IDENTIFIER ::= { id-at 12 }
X520Title ::= CHOICE {
  teletexString TeletexString (SIZE (1..ub-title)),
  printableString PrintableString (SIZE (1..ub-title)),
  universalString UniversalString (SIZE (1..ub-title)),
  utf8String UTF8String (SIZE (1..ub-title)),
  bmpString BMPString (SIZE (1..ub-title)) }
id-at-dnQualifier OBJECT IDENTIFIER ::= { id-at 46 }
X520dnQualifier ::= PrintableString
id-at-countryName OBJECT IDENTIFIER ::= { id-at 6 }
X520countryName ::= PrintableString (SIZE (2))
pkcs-9 OBJECT IDENTIFIER ::= { iso(1) member-body(2) us(840) rsadsi(113549) pkcs(1) 9 }
emailAddress OBJECT IDENTIFIER ::= { pkcs-9 1 }
Pkcs9email ::= IA5String (SIZE (1..ub-emailaddress-length))

Name ::= CHOICE { RDNSequence }
RDNSequence ::= SEQUENCE OF RelativeDistinguishedName
DistinguishedName ::= RDNSequence
RelativeDistinguishedName ::= SET SIZE (1..MAX) OF AttributeTypeAndValue
DirectoryString ::= CHOICE {
  teletexString TeletexString (SIZE (1..MAX)),
  printableString PrintableString (SIZE (1..MAX)),
  universalString UniversalString (SIZE (1..MAX)),
  utf8String UTF8String (SIZE (1..MAX)),
  bmpString BMPString (SIZE (1..MAX)) }

Certificate ::= SEQUENCE {
  tbsCertificate TBSCertificate,
  signatureAlgorithm AlgorithmIdentifier,
  signatureValue BIT STRING }
TBSCertificate ::= SEQUENCE {
  version [0] Version DEFAULT v1,
  serialNumber CertificateSerialNumber,
  signature AlgorithmIdentifier,
  issuer Name,
  validity Validity,
  subject Name,
  subjectPublicKeyInfo SubjectPublicKeyInfo,
  issuerUniqueID [1] IMPLICIT UniqueIdentifier OPTIONAL,
  subjectUniqueID [2] IMPLICIT UniqueIdentifier OPTIONAL,
  extensions [3] Extensions OPTIONAL }
Version ::= INTEGER { v1(0), v2(1), v3(2) }
CertificateSerialNumber ::= INTEGER
Validity ::= SEQUENCE {
  notBefore Time,
  notAfter Time }
Time ::= CHOICE {
  utcTime UTCTime,
  generalTime GeneralizedTime }
UniqueIdentifier ::= BIT STRING
SubjectPublicKeyInfo ::= SEQUENCE {
  algorithm AlgorithmIdentifier,
  subjectPublicKey BIT STRING }
Extensions ::= SEQUENCE SIZE (1..MAX) OF Extension
Extension ::= SEQUENCE {
  extnID OBJECT IDENTIFIER,
  critical BOOLEAN DEFAULT FALSE,
  extnValue OCTET STRING }

CertificateList ::= SEQUENCE {
  tbsCertList TBSCertList,
  signatureAlgorithm AlgorithmIdentifier,
  signature BIT STRING }
TBSCertList ::= SEQUENCE {
  version Version OPTIONAL,
  signature AlgorithmIdentifier,
  issuer Name,
  thisUpdate Time,
  nextUpdate Time OPTIONAL,
  revokedCertificates SEQUENCE OF SEQUENCE {
    userCertificate CertificateSerialNumber,
    revocationDate Time,
    crlEntryExtensions Extensions OPTIONAL } OPTIONAL,
  crlExtensions [0] Extensions OPTIONAL }
AlgorithmIdentifier ::= SEQUENCE {
  algorithm OBJECT IDENTIFIER,
  parameters ANY DEFINED BY algorithm OPTIONAL }

ORAddress ::= SEQUENCE {
  built-in-standard-attributes BuiltInStandardAttributes,
  built-in-domain-defined-attributes BuiltInDomainDefinedAttributes OPTIONAL,
  extension-attributes ExtensionAttributes OPTIONAL }
BuiltInStandardAttributes ::= SEQUENCE {
  country-name CountryName OPTIONAL,
  administration-domain-name AdministrationDomainName OPTIONAL,
  network-address [0] NetworkAddress OPTIONAL,
  terminal-identifier [1] TerminalIdentifier OPTIONAL,
  private-domain-name [2] PrivateDomainName OPTIONAL,
  organization-name [3] OrganizationName OPTIONAL,
  numeric-user-identifier [4] NumericUserIdentifier OPTIONAL,
  personal-name [5] PersonalName OPTIONAL,
  organizational-unit-names [6] OrganizationalUnitNames OPTIONAL }
CountryName ::= [APPLICATION 1] CHOICE {
  x121-dcc-code NumericString (SIZE (ub-country-name-numeric-length)),
  iso-3166-alpha2-code PrintableString (SIZE (ub-country-name-alpha-length)) }
AdministrationDomainName ::= [APPLICATION 2] CHOICE {
  numeric NumericString (SIZE (0..ub-domain-name-length)),
  printable PrintableString (SIZE (0..ub-domain-name-length)) }
NetworkAddress ::= X121Address
X121Address ::= NumericString (SIZE (1..ub-x121-address-length))
TerminalIdentifier ::= PrintableString (SIZE (1..ub-terminal-id-length))
PrivateDomainName ::= CHOICE {
  numeric NumericString (SIZE (1..ub-domain-name-length)),
  printable PrintableString (SIZE (1..ub-domain-name-length)) }
OrganizationName ::= PrintableString (SIZE (1..ub-organization-name-length))
NumericUserIdentifier ::= NumericString (SIZE (1..ub-numeric-user-id-length))
PersonalName ::= SET {
  surname [0] PrintableString (SIZE (1..ub-surname-length)),
  given-name [1] PrintableString (SIZE (1..ub-given-name-length)) OPTIONAL,
  initials [2] PrintableString (SIZE (1..ub-initials-length)) OPTIONAL,
  generation-qualifier [3] PrintableString (SIZE (1..ub-generation-qualifier-length)) OPTIONAL }
OrganizationalUnitNames ::= SEQUENCE SIZE (1..ub-organizational-units) OF OrganizationalUnitName
OrganizationalUnitName ::= PrintableString (SIZE (1..ub-organizational-unit-name-length))
BuiltInDomainDefinedAttributes ::= SEQUENCE SIZE (1..ub-domain-defined-attributes) OF BuiltInDomainDefinedAttribute
BuiltInDomainDefinedAttribute ::= SEQUENCE {
  type PrintableString (SIZE (1..ub-domain-defined-attribute-type-length)),
  value PrintableString (SIZE (1..ub-domain-defined-attribute-value-length)) }
ExtensionAttributes ::= SET SIZE (1..ub-extension-attributes) OF ExtensionAttribute
ExtensionAttribute ::= SEQUENCE {
  extension-attribute-type [0] INTEGER (0..ub-extension-attributes),
  extension-attribute-value [1] ANY DEFINED BY extension-attribute-type }
common-name INTEGER ::= 1
CommonName ::= PrintableString (SIZE (1..ub-common-name-length))
teletex-common-name INTEGER ::= 2
TeletexCommonName ::= TeletexString (SIZE (1..ub-common-name-length))
teletex-organization-name INTEGER ::= 3
TeletexOrganizationName ::= TeletexString (SIZE (1..ub-organization-name-length))
teletex-personal-name INTEGER ::= 4
TeletexPersonalName ::= SET {
  surname [0] TeletexString (SIZE (1..ub-surname-length)),
  given-name [1] TeletexString (SIZE (1..ub-given-name-length)) OPTIONAL,
  initials [2] TeletexString (SIZE (1..ub-initials-length)) OPTIONAL,
  generation-qualifier [3] TeletexString (SIZE (1..ub-generation-qualifier-length)) OPTIONAL }
teletex-organizational-unit-names INTEGER ::= 5
TeletexOrganizationalUnitNames ::= SEQUENCE SIZE (1..ub-organizational-units) OF TeletexOrganizationalUnitName
TeletexOrganizationalUnitName ::= TeletexString (SIZE (1..ub-organizational-unit-name-length))
pds-name INTEGER ::= 7
PDSName ::= PrintableString (SIZE (1..ub-pds-name-length))
physical-delivery-country-name INTEGER ::= 8
PhysicalDeliveryCountryName ::= CHOICE {
  x121-dcc-code NumericString (SIZE (ub-country-name-numeric-length)),
  iso-3166-alpha2-code PrintableString (SIZE (ub-country-name-alpha-length)) }
postal-code INTEGER ::= 9
PostalCode ::= CHOICE {
  numeric-code NumericString (SIZE (1..ub-postal-code-length)),
  printable-code PrintableString (SIZE (1..ub-postal-code-length)) }
physical-delivery-office-name INTEGER ::= 10
PhysicalDeliveryOfficeName ::= PDSParameter
physical-delivery-office-number INTEGER ::= 11
PhysicalDeliveryOfficeNumber ::= PDSParameter
extension-OR-address-components INTEGER ::= 12
ExtensionORAddressComponents ::= PDSParameter
physical-delivery-personal-name INTEGER ::= 13
PhysicalDeliveryPersonalName ::= PDSParameter
physical-delivery-organization-name INTEGER ::= 14
PhysicalDeliveryOrganizationName ::= PDSParameter
extension-physical-delivery-address-components INTEGER ::= 15
ExtensionPhysicalDeliveryAddressComponents ::= PDSParameter
unformatted-postal-address INTEGER ::= 16
UnformattedPostalAddress ::= SET {
  printable-address SEQUENCE SIZE (1..ub-pds-physical-address-lines) OF PrintableString (SIZE (1..ub-pds-parameter-length)) OPTIONAL,
  teletex-string TeletexString (SIZE (1..ub-unformatted-address-length)) OPTIONAL }
street-address INTEGER ::= 17
StreetAddress ::= PDSParameter
post-office-box-address INTEGER ::= 18
PostOfficeBoxAddress ::= PDSParameter
poste-restante-address INTEGER ::= 19
PosteRestanteAddress ::= PDSParameter
unique-postal-name INTEGER ::= 20
UniquePostalName ::= PDSParameter
local-postal-attributes INTEGER ::= 21
LocalPostalAttributes ::= PDSParameter
PDSParameter ::= SET {
  printable-string PrintableString (SIZE (1..ub-pds-parameter-length)) OPTIONAL,
  teletex-string TeletexString (SIZE (1..ub-pds-parameter-length)) OPTIONAL }
extended-network-address INTEGER ::= 22
ExtendedNetworkAddress ::= CHOICE {
  e163-4-address SEQUENCE {
    number [0] NumericString (SIZE (1..ub-e163-4-number-length)),
    sub-address [1] NumericString (SIZE (1..ub-e163-4-sub-address-length)) OPTIONAL },
  psap-address [0] PresentationAddress }
PresentationAddress ::= SEQUENCE {
  pSelector [0] EXPLICIT OCTET STRING OPTIONAL,
  sSelector [1] EXPLICIT OCTET STRING OPTIONAL,
  tSelector [2] EXPLICIT OCTET STRING OPTIONAL,
  nAddresses [3] EXPLICIT SET SIZE (1..MAX) OF OCTET STRING }
terminal-type INTEGER ::= 23
TerminalType ::= INTEGER { telex(3), teletex(4), g3-facsimile(5), g4-facsimile(6), ia5-terminal(7), videotex(8) } (0..ub-integer-options)
teletex-domain-defined-attributes INTEGER ::= 6
TeletexDomainDefinedAttributes ::= SEQUENCE SIZE (1..ub-domain-defined-attributes) OF TeletexDomainDefinedAttribute
TeletexDomainDefinedAttribute ::= SEQUENCE {
  type TeletexString (SIZE (1..ub-domain-defined-attribute-type-length)),
  value TeletexString (SIZE (1..ub-domain-defined-attribute-value-length)) }

ub-name INTEGER ::= 32768
ub-common-name INTEGER ::= 64
ub-locality-name INTEGER ::= 128
ub-state-name INTEGER ::= 128
ub-organization-name INTEGER ::= 64
ub-organizational-unit-name INTEGER ::= 64
ub-title INTEGER ::= 64
ub-match INTEGER ::= 128
ub-emailaddress-length INTEGER ::= 128
ub-common-name-length INTEGER ::= 64
ub-country-name-alpha-length INTEGER ::= 2
ub-country-name-numeric-length INTEGER ::= 3
ub-domain-defined-attributes INTEGER ::= 4
ub-domain-defined-attribute-type-length INTEGER ::= 8
ub-domain-defined-attribute-value-length INTEGER ::= 128
ub-domain-name-length INTEGER ::= 16
ub-extension-attributes INTEGER ::= 256
ub-e163-4-number-length INTEGER ::= 15
ub-e163-4-sub-address-length INTEGER ::= 40
ub-generation-qualifier-length INTEGER ::= 3
ub-given-name-length INTEGER ::= 16
ub-initials-length INTEGER ::= 5
ub-integer-options INTEGER ::= 256
ub-numeric-user-id-length INTEGER ::= 32
ub-organization-name-length INTEGER ::= 64
ub-organizational-unit-name-length INTEGER ::= 32
ub-organizational-units INTEGER ::= 4
ub-pds-name-length INTEGER ::= 16
ub-pds-parameter-length INTEGER ::= 30
ub-pds-physical-address-lines INTEGER ::= 6
ub-postal-code-length INTEGER ::= 16
ub-surname-length INTEGER ::= 40
ub-terminal-id-length INTEGER ::= 24
ub-unformatted-address-length INTEGER ::= 180
ub-x121-address-length INTEGER ::= 16

Dss-Sig-Value ::= SEQUENCE {
  r INTEGER,
  s INTEGER }
Dss-Parms ::= SEQUENCE {
  p INTEGER,
  q INTEGER,
  g INTEGER }
DomainParameters ::= SEQUENCE {
  p INTEGER,
  g INTEGER,
  q INTEGER,
  j INTEGER OPTIONAL,
  validationParms ValidationParms OPTIONAL }
ValidationParms ::= SEQUENCE {
  seed BIT STRING,
  pgenCounter INTEGER }
pkcs-1 OBJECT IDENTIFIER ::= { iso(1) member-body(2) us(840) rsadsi(113549) pkcs(1) 1 }
rsaEncryption OBJECT IDENTIFIER ::= { pkcs-1 1 }
md2WithRSAEncryption OBJECT IDENTIFIER ::= { pkcs-1 2 }
md5WithRSAEncryption OBJECT IDENTIFIER ::= { pkcs-1 4 }
sha1WithRSAEncryption OBJECT IDENTIFIER ::= { pkcs-1 5 }
id-dsa-with-sha1 OBJECT IDENTIFIER ::= { iso(1) member-body(2) us(840) x9-57(10040) x9algorithm(4) 3 }
dhpublicnumber OBJECT IDENTIFIER ::= { iso(1) member-body(2) us(840) ansi-x942(10046) number-type(2) 1 }
id-dsa OBJECT IDENTIFIER ::= { iso(1) member-body(2) us(840) x9-57(10040) x9algorithm(4) 1 }
id-kp-ipsecEndSystem OBJECT IDENTIFIER ::= { id-kp 5 }
id-kp-ipsecTunnel OBJECT IDENTIFIER ::= { id-kp 6 }
id-kp-ipsecUser OBJECT IDENTIFIER ::= { id-kp 7 }
END

PKIX1Implicit88 DEFINITIONS IMPLICIT TAGS ::= BEGIN

id-ce OBJECT IDENTIFIER ::= { joint-iso-ccitt(2) ds(5) 29 }
id-ce-authorityKeyIdentifier OBJECT IDENTIFIER ::= { id-ce 35 }
AuthorityKeyIdentifier ::= SEQUENCE {
  keyIdentifier [0] KeyIdentifier OPTIONAL,
  authorityCertIssuer [1] GeneralNames OPTIONAL,
  authorityCertSerialNumber [2] CertificateSerialNumber OPTIONAL }
KeyIdentifier ::= OCTET STRING
id-ce-subjectKeyIdentifier OBJECT IDENTIFIER ::= { id-ce 14 }
SubjectKeyIdentifier ::= KeyIdentifier
id-ce-keyUsage OBJECT IDENTIFIER ::= { id-ce 15 }
KeyUsage ::= BIT STRING { digitalSignature(0), nonRepudiation(1), keyEncipherment(2), dataEncipherment(3),
  keyAgreement(4), keyCertSign(5), cRLSign(6), encipherOnly(7), decipherOnly(8) }
id-ce-privateKeyUsagePeriod OBJECT IDENTIFIER ::= { id-ce 16 }
PrivateKeyUsagePeriod ::= SEQUENCE {
  notBefore [0] GeneralizedTime OPTIONAL,
  notAfter [1] GeneralizedTime OPTIONAL }
id-ce-certificatePolicies OBJECT IDENTIFIER ::= { id-ce 32 }
CertificatePolicies ::= SEQUENCE SIZE (1..MAX) OF PolicyInformation
PolicyInformation ::= SEQUENCE {
  policyIdentifier CertPolicyId,
  policyQualifiers SEQUENCE SIZE (1..MAX) OF PolicyQualifierInfo OPTIONAL }
CertPolicyId ::= OBJECT IDENTIFIER
PolicyQualifierInfo ::= SEQUENCE {
  policyQualifierId PolicyQualifierId,
  qualifier ANY DEFINED BY policyQualifierId }
PolicyQualifierId ::= OBJECT IDENTIFIER (id-qt-cps | id-qt-unotice)
CPSuri ::= IA5String
UserNotice ::= SEQUENCE {
  noticeRef NoticeReference OPTIONAL,
  explicitText DisplayText OPTIONAL }
NoticeReference ::= SEQUENCE {
  organization DisplayText,
  noticeNumbers SEQUENCE OF INTEGER }
DisplayText ::= CHOICE {
  visibleString VisibleString (SIZE (1..200)),
  bmpString BMPString (SIZE (1..200)),
  utf8String UTF8String (SIZE (1..200)) }
id-ce-policyMappings OBJECT IDENTIFIER ::= { id-ce 33 }
PolicyMappings ::= SEQUENCE SIZE (1..MAX) OF SEQUENCE {
  issuerDomainPolicy CertPolicyId,
  subjectDomainPolicy CertPolicyId }
id-ce-subjectAltName OBJECT IDENTIFIER ::= { id-ce 17 }
SubjectAltName ::= GeneralNames
GeneralNames ::= SEQUENCE SIZE (1..MAX) OF GeneralName
GeneralName ::= CHOICE {
  otherName [0] AnotherName,
  rfc822Name [1] IA5String,
  dNSName [2] IA5String,
  x400Address [3] ORAddress,
  directoryName [4] Name,
  ediPartyName [5] EDIPartyName,
  uniformResourceIdentifier [6] IA5String,
  iPAddress [7] OCTET STRING,
  registeredID [8] OBJECT IDENTIFIER }
AnotherName ::= SEQUENCE {
  type-id OBJECT IDENTIFIER,
  value [0] EXPLICIT ANY DEFINED BY type-id }
EDIPartyName ::= SEQUENCE {
  nameAssigner [0] DirectoryString OPTIONAL,
  partyName [1] DirectoryString }
id-ce-issuerAltName OBJECT IDENTIFIER ::= { id-ce 18 }
IssuerAltName ::= GeneralNames
id-ce-subjectDirectoryAttributes OBJECT IDENTIFIER ::= { id-ce 9 }
SubjectDirectoryAttributes ::= SEQUENCE SIZE (1..MAX) OF Attribute
id-ce-basicConstraints OBJECT IDENTIFIER ::= { id-ce 19 }
BasicConstraints ::= SEQUENCE {
  cA BOOLEAN DEFAULT FALSE,
  pathLenConstraint INTEGER (0..MAX) OPTIONAL }
id-ce-nameConstraints OBJECT IDENTIFIER ::= { id-ce 30 }
NameConstraints ::= SEQUENCE {
  permittedSubtrees [0] GeneralSubtrees OPTIONAL,
  excludedSubtrees [1] GeneralSubtrees OPTIONAL }
GeneralSubtrees ::= SEQUENCE SIZE (1..MAX) OF GeneralSubtree
GeneralSubtree ::= SEQUENCE {
  base GeneralName,
  minimum [0] BaseDistance DEFAULT 0,
  maximum [1] BaseDistance OPTIONAL }
BaseDistance ::= INTEGER (0..MAX)
id-ce-policyConstraints OBJECT IDENTIFIER ::= { id-ce 36 }
PolicyConstraints ::= SEQUENCE {
  requireExplicitPolicy [0] SkipCerts OPTIONAL,
  inhibitPolicyMapping [1] SkipCerts OPTIONAL }
SkipCerts ::= INTEGER (0..MAX)
id-ce-cRLDistributionPoints OBJECT IDENTIFIER ::= { id-ce 31 }
CRLDistPointsSyntax ::= SEQUENCE SIZE (1..MAX) OF DistributionPoint
DistributionPoint ::= SEQUENCE {
  distributionPoint [0] DistributionPointName OPTIONAL,
  reasons [1] ReasonFlags OPTIONAL,
  cRLIssuer [2] GeneralNames OPTIONAL }
DistributionPointName ::= CHOICE {
  fullName [0] GeneralNames,
  nameRelativeToCRLIssuer [1] RelativeDistinguishedName }
ReasonFlags ::= BIT STRING { unused(0), keyCompromise(1), cACompromise(2), affiliationChanged(3), superseded(4),
  cessationOfOperation(5), certificateHold(6) }
id-ce-extKeyUsage OBJECT IDENTIFIER ::= { id-ce 37 }
ExtKeyUsageSyntax ::= SEQUENCE SIZE (1..MAX) OF KeyPurposeId
KeyPurposeId ::= OBJECT IDENTIFIER
id-kp-serverAuth OBJECT IDENTIFIER ::= { id-kp 1 }
id-kp-clientAuth OBJECT IDENTIFIER ::= { id-kp 2 }
id-kp-codeSigning OBJECT IDENTIFIER ::= { id-kp 3 }
id-kp-emailProtection OBJECT IDENTIFIER ::= { id-kp 4 }
id-kp-timeStamping OBJECT IDENTIFIER ::= { id-kp 8 }
id-kp-OCSPSigning OBJECT IDENTIFIER ::= { id-kp 9 }
id-pe-authorityInfoAccess OBJECT IDENTIFIER ::= { id-pe 1 }
AuthorityInfoAccessSyntax ::= SEQUENCE SIZE (1..MAX) OF AccessDescription
AccessDescription ::= SEQUENCE {
  accessMethod OBJECT IDENTIFIER,
  accessLocation GeneralName }
id-ce-cRLNumber OBJECT IDENTIFIER ::= { id-ce 20 }
CRLNumber ::= INTEGER (0..MAX)
id-ce-issuingDistributionPoint OBJECT IDENTIFIER ::= { id-ce 28 }
IssuingDistributionPoint ::= SEQUENCE {
  distributionPoint [0] DistributionPointName OPTIONAL,
  onlyContainsUserCerts [1] BOOLEAN DEFAULT FALSE,
  onlyContainsCACerts [2] BOOLEAN DEFAULT FALSE,
  onlySomeReasons [3] ReasonFlags OPTIONAL,
  indirectCRL [4] BOOLEAN DEFAULT FALSE }
id-ce-deltaCRLIndicator OBJECT IDENTIFIER ::= { id-ce 27 }
BaseCRLNumber ::= CRLNumber
id-ce-cRLReasons OBJECT IDENTIFIER ::= { id-ce 21 }
CRLReason ::= ENUMERATED { unspecified(0), keyCompromise(1), cACompromise(2), affiliationChanged(3), superseded(4),
  cessationOfOperation(5), certificateHold(6), removeFromCRL(8) }
id-ce-certificateIssuer OBJECT IDENTIFIER ::= { id-ce 29 }
CertificateIssuer ::= GeneralNames
id-ce-holdInstructionCode OBJECT IDENTIFIER ::= { id-ce 23 }
HoldInstructionCode ::= OBJECT IDENTIFIER
holdInstruction OBJECT IDENTIFIER ::= { joint-iso-itu-t(2) member-body(2) us(840) x9cm(10040) 2 }
id-holdinstruction-none OBJECT IDENTIFIER ::= { holdInstruction 1 }
id-holdinstruction-callissuer OBJECT IDENTIFIER ::= { holdInstruction 2 }
id-holdinstruction-reject OBJECT IDENTIFIER ::= { holdInstruction 3 }
id-ce-invalidityDate OBJECT IDENTIFIER ::= { id-ce 24 }
InvalidityDate ::= GeneralizedTime

END
