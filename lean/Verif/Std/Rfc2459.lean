import Verif.Spec.Grade
import Verif.Gen.Rfc2459

/-! The ASN.1 of tools/std/rfc2459.asn1 (generated by tools/stdgen.py). -/

namespace Verif
namespace Std
namespace Rfc2459

open Asn1 Spec.X680

/-- `AttributeType ::=` -/
def AttributeType : Ty :=
  OBJECT_IDENTIFIER

/-- `AttributeValue ::=` -/
def AttributeValue : Ty :=
  ANY

/-- `Attribute ::=` -/
def Attribute : Ty :=
  SEQUENCE [
    mandatory "type" AttributeType,
    mandatory "values" (SET_OF AttributeValue)]

/-- `AttributeTypeAndValue ::=` -/
def AttributeTypeAndValue : Ty :=
  SEQUENCE [
    mandatory "type" AttributeType,
    mandatory "value" AttributeValue]

/-- `X520name ::=` -/
def X520name : Ty :=
  CHOICE [
    mandatory "teletexString" (constrained (SIZE 1 32768) TeletexString),
    mandatory "printableString" (constrained (SIZE 1 32768) PrintableString),
    mandatory "universalString" (constrained (SIZE 1 32768) UniversalString),
    mandatory "utf8String" (constrained (SIZE 1 32768) UTF8String),
    mandatory "bmpString" (constrained (SIZE 1 32768) BMPString)]

/-- `X520CommonName ::=` -/
def X520CommonName : Ty :=
  CHOICE [
    mandatory "teletexString" (constrained (SIZE 1 64) TeletexString),
    mandatory "printableString" (constrained (SIZE 1 64) PrintableString),
    mandatory "universalString" (constrained (SIZE 1 64) UniversalString),
    mandatory "utf8String" (constrained (SIZE 1 64) UTF8String),
    mandatory "bmpString" (constrained (SIZE 1 64) BMPString)]

/-- `X520LocalityName ::=` -/
def X520LocalityName : Ty :=
  CHOICE [
    mandatory "teletexString" (constrained (SIZE 1 128) TeletexString),
    mandatory "printableString" (constrained (SIZE 1 128) PrintableString),
    mandatory "universalString" (constrained (SIZE 1 128) UniversalString),
    mandatory "utf8String" (constrained (SIZE 1 128) UTF8String),
    mandatory "bmpString" (constrained (SIZE 1 128) BMPString)]

/-- `X520StateOrProvinceName ::=` -/
def X520StateOrProvinceName : Ty :=
  CHOICE [
    mandatory "teletexString" (constrained (SIZE 1 128) TeletexString),
    mandatory "printableString" (constrained (SIZE 1 128) PrintableString),
    mandatory "universalString" (constrained (SIZE 1 128) UniversalString),
    mandatory "utf8String" (constrained (SIZE 1 128) UTF8String),
    mandatory "bmpString" (constrained (SIZE 1 128) BMPString)]

/-- `X520OrganizationName ::=` -/
def X520OrganizationName : Ty :=
  CHOICE [
    mandatory "teletexString" (constrained (SIZE 1 64) TeletexString),
    mandatory "printableString" (constrained (SIZE 1 64) PrintableString),
    mandatory "universalString" (constrained (SIZE 1 64) UniversalString),
    mandatory "utf8String" (constrained (SIZE 1 64) UTF8String),
    mandatory "bmpString" (constrained (SIZE 1 64) BMPString)]

/-- `X520OrganizationalUnitName ::=` -/
def X520OrganizationalUnitName : Ty :=
  CHOICE [
    mandatory "teletexString" (constrained (SIZE 1 64) TeletexString),
    mandatory "printableString" (constrained (SIZE 1 64) PrintableString),
    mandatory "universalString" (constrained (SIZE 1 64) UniversalString),
    mandatory "utf8String" (constrained (SIZE 1 64) UTF8String),
    mandatory "bmpString" (constrained (SIZE 1 64) BMPString)]

/-- `X520Title ::=` -/
def X520Title : Ty :=
  CHOICE [
    mandatory "teletexString" (constrained (SIZE 1 64) TeletexString),
    mandatory "printableString" (constrained (SIZE 1 64) PrintableString),
    mandatory "universalString" (constrained (SIZE 1 64) UniversalString),
    mandatory "utf8String" (constrained (SIZE 1 64) UTF8String),
    mandatory "bmpString" (constrained (SIZE 1 64) BMPString)]

/-- `X520dnQualifier ::=` -/
def X520dnQualifier : Ty :=
  PrintableString

/-- `X520countryName ::=` -/
def X520countryName : Ty :=
  constrained (SIZE 2 2) PrintableString

/-- `Pkcs9email ::=` -/
def Pkcs9email : Ty :=
  constrained (SIZE 1 128) IA5String

/-- `RelativeDistinguishedName ::=` -/
def RelativeDistinguishedName : Ty :=
  constrained (SIZE_MAX 1) (SET_OF AttributeTypeAndValue)

/-- `RDNSequence ::=` -/
def RDNSequence : Ty :=
  SEQUENCE_OF RelativeDistinguishedName

/-- `Name ::=` -/
def Name : Ty :=
  CHOICE [
    mandatory "" RDNSequence]

/-- `DistinguishedName ::=` -/
def DistinguishedName : Ty :=
  RDNSequence

/-- `DirectoryString ::=` -/
def DirectoryString : Ty :=
  CHOICE [
    mandatory "teletexString" (constrained (SIZE_MAX 1) TeletexString),
    mandatory "printableString" (constrained (SIZE_MAX 1) PrintableString),
    mandatory "universalString" (constrained (SIZE_MAX 1) UniversalString),
    mandatory "utf8String" (constrained (SIZE_MAX 1) UTF8String),
    mandatory "bmpString" (constrained (SIZE_MAX 1) BMPString)]

/-- `Version ::=` -/
def Version : Ty :=
  named [("v1", 0), ("v2", 1), ("v3", 2)] INTEGER

/-- `CertificateSerialNumber ::=` -/
def CertificateSerialNumber : Ty :=
  INTEGER

/-- `AlgorithmIdentifier ::=` -/
def AlgorithmIdentifier : Ty :=
  SEQUENCE [
    mandatory "algorithm" OBJECT_IDENTIFIER,
    optional "parameters" ANY]

/-- `Time ::=` -/
def Time : Ty :=
  CHOICE [
    mandatory "utcTime" UTCTime,
    mandatory "generalTime" GeneralizedTime]

/-- `Validity ::=` -/
def Validity : Ty :=
  SEQUENCE [
    mandatory "notBefore" Time,
    mandatory "notAfter" Time]

/-- `SubjectPublicKeyInfo ::=` -/
def SubjectPublicKeyInfo : Ty :=
  SEQUENCE [
    mandatory "algorithm" AlgorithmIdentifier,
    mandatory "subjectPublicKey" BIT_STRING]

/-- `UniqueIdentifier ::=` -/
def UniqueIdentifier : Ty :=
  BIT_STRING

/-- `Extension ::=` -/
def Extension : Ty :=
  SEQUENCE [
    mandatory "extnID" OBJECT_IDENTIFIER,
    default "critical" BOOLEAN (.int 0),
    mandatory "extnValue" OCTET_STRING]

/-- `Extensions ::=` -/
def Extensions : Ty :=
  constrained (SIZE_MAX 1) (SEQUENCE_OF Extension)

/-- `TBSCertificate ::=` -/
def TBSCertificate : Ty :=
  SEQUENCE [
    default "version" (explicit .context 0 Version) (.int 0),
    mandatory "serialNumber" CertificateSerialNumber,
    mandatory "signature" AlgorithmIdentifier,
    mandatory "issuer" Name,
    mandatory "validity" Validity,
    mandatory "subject" Name,
    mandatory "subjectPublicKeyInfo" SubjectPublicKeyInfo,
    optional "issuerUniqueID" (implicit .context 1 UniqueIdentifier),
    optional "subjectUniqueID" (implicit .context 2 UniqueIdentifier),
    optional "extensions" (explicit .context 3 Extensions)]

/-- `Certificate ::=` -/
def Certificate : Ty :=
  SEQUENCE [
    mandatory "tbsCertificate" TBSCertificate,
    mandatory "signatureAlgorithm" AlgorithmIdentifier,
    mandatory "signatureValue" BIT_STRING]

/-- `TBSCertList ::=` -/
def TBSCertList : Ty :=
  SEQUENCE [
    optional "version" Version,
    mandatory "signature" AlgorithmIdentifier,
    mandatory "issuer" Name,
    mandatory "thisUpdate" Time,
    optional "nextUpdate" Time,
    optional "revokedCertificates" (SEQUENCE_OF (SEQUENCE [
      mandatory "userCertificate" CertificateSerialNumber,
      mandatory "revocationDate" Time,
      optional "crlEntryExtensions" Extensions])),
    optional "crlExtensions" (explicit .context 0 Extensions)]

/-- `CertificateList ::=` -/
def CertificateList : Ty :=
  SEQUENCE [
    mandatory "tbsCertList" TBSCertList,
    mandatory "signatureAlgorithm" AlgorithmIdentifier,
    mandatory "signature" BIT_STRING]

/-- `CountryName ::=` -/
def CountryName : Ty :=
  explicit .application 1 (CHOICE [
    mandatory "x121-dcc-code" (constrained (SIZE 3 3) NumericString),
    mandatory "iso-3166-alpha2-code" (constrained (SIZE 2 2) PrintableString)])

/-- `AdministrationDomainName ::=` -/
def AdministrationDomainName : Ty :=
  explicit .application 2 (CHOICE [
    mandatory "numeric" (constrained (SIZE 0 16) NumericString),
    mandatory "printable" (constrained (SIZE 0 16) PrintableString)])

/-- `X121Address ::=` -/
def X121Address : Ty :=
  constrained (SIZE 1 16) NumericString

/-- `NetworkAddress ::=` -/
def NetworkAddress : Ty :=
  X121Address

/-- `TerminalIdentifier ::=` -/
def TerminalIdentifier : Ty :=
  constrained (SIZE 1 24) PrintableString

/-- `PrivateDomainName ::=` -/
def PrivateDomainName : Ty :=
  CHOICE [
    mandatory "numeric" (constrained (SIZE 1 16) NumericString),
    mandatory "printable" (constrained (SIZE 1 16) PrintableString)]

/-- `OrganizationName ::=` -/
def OrganizationName : Ty :=
  constrained (SIZE 1 64) PrintableString

/-- `NumericUserIdentifier ::=` -/
def NumericUserIdentifier : Ty :=
  constrained (SIZE 1 32) NumericString

/-- `PersonalName ::=` -/
def PersonalName : Ty :=
  SET [
    mandatory "surname" (explicit .context 0 (constrained (SIZE 1 40) PrintableString)),
    optional "given-name" (explicit .context 1 (constrained (SIZE 1 16) PrintableString)),
    optional "initials" (explicit .context 2 (constrained (SIZE 1 5) PrintableString)),
    optional "generation-qualifier" (explicit .context 3 (constrained (SIZE 1 3) PrintableString))]

/-- `OrganizationalUnitName ::=` -/
def OrganizationalUnitName : Ty :=
  constrained (SIZE 1 32) PrintableString

/-- `OrganizationalUnitNames ::=` -/
def OrganizationalUnitNames : Ty :=
  constrained (SIZE 1 4) (SEQUENCE_OF OrganizationalUnitName)

/-- `BuiltInStandardAttributes ::=` -/
def BuiltInStandardAttributes : Ty :=
  SEQUENCE [
    optional "country-name" CountryName,
    optional "administration-domain-name" AdministrationDomainName,
    optional "network-address" (explicit .context 0 NetworkAddress),
    optional "terminal-identifier" (explicit .context 1 TerminalIdentifier),
    optional "private-domain-name" (explicit .context 2 PrivateDomainName),
    optional "organization-name" (explicit .context 3 OrganizationName),
    optional "numeric-user-identifier" (explicit .context 4 NumericUserIdentifier),
    optional "personal-name" (explicit .context 5 PersonalName),
    optional "organizational-unit-names" (explicit .context 6 OrganizationalUnitNames)]

/-- `BuiltInDomainDefinedAttribute ::=` -/
def BuiltInDomainDefinedAttribute : Ty :=
  SEQUENCE [
    mandatory "type" (constrained (SIZE 1 8) PrintableString),
    mandatory "value" (constrained (SIZE 1 128) PrintableString)]

/-- `BuiltInDomainDefinedAttributes ::=` -/
def BuiltInDomainDefinedAttributes : Ty :=
  constrained (SIZE 1 4) (SEQUENCE_OF BuiltInDomainDefinedAttribute)

/-- `ExtensionAttribute ::=` -/
def ExtensionAttribute : Ty :=
  SEQUENCE [
    mandatory "extension-attribute-type" (explicit .context 0 (constrained (RANGE 0 256) INTEGER)),
    mandatory "extension-attribute-value" (explicit .context 1 ANY)]

/-- `ExtensionAttributes ::=` -/
def ExtensionAttributes : Ty :=
  constrained (SIZE 1 256) (SET_OF ExtensionAttribute)

/-- `ORAddress ::=` -/
def ORAddress : Ty :=
  SEQUENCE [
    mandatory "built-in-standard-attributes" BuiltInStandardAttributes,
    optional "built-in-domain-defined-attributes" BuiltInDomainDefinedAttributes,
    optional "extension-attributes" ExtensionAttributes]

/-- `CommonName ::=` -/
def CommonName : Ty :=
  constrained (SIZE 1 64) PrintableString

/-- `TeletexCommonName ::=` -/
def TeletexCommonName : Ty :=
  constrained (SIZE 1 64) TeletexString

/-- `TeletexOrganizationName ::=` -/
def TeletexOrganizationName : Ty :=
  constrained (SIZE 1 64) TeletexString

/-- `TeletexPersonalName ::=` -/
def TeletexPersonalName : Ty :=
  SET [
    mandatory "surname" (explicit .context 0 (constrained (SIZE 1 40) TeletexString)),
    optional "given-name" (explicit .context 1 (constrained (SIZE 1 16) TeletexString)),
    optional "initials" (explicit .context 2 (constrained (SIZE 1 5) TeletexString)),
    optional "generation-qualifier" (explicit .context 3 (constrained (SIZE 1 3) TeletexString))]

/-- `TeletexOrganizationalUnitName ::=` -/
def TeletexOrganizationalUnitName : Ty :=
  constrained (SIZE 1 32) TeletexString

/-- `TeletexOrganizationalUnitNames ::=` -/
def TeletexOrganizationalUnitNames : Ty :=
  constrained (SIZE 1 4) (SEQUENCE_OF TeletexOrganizationalUnitName)

/-- `PDSName ::=` -/
def PDSName : Ty :=
  constrained (SIZE 1 16) PrintableString

/-- `PhysicalDeliveryCountryName ::=` -/
def PhysicalDeliveryCountryName : Ty :=
  CHOICE [
    mandatory "x121-dcc-code" (constrained (SIZE 3 3) NumericString),
    mandatory "iso-3166-alpha2-code" (constrained (SIZE 2 2) PrintableString)]

/-- `PostalCode ::=` -/
def PostalCode : Ty :=
  CHOICE [
    mandatory "numeric-code" (constrained (SIZE 1 16) NumericString),
    mandatory "printable-code" (constrained (SIZE 1 16) PrintableString)]

/-- `PDSParameter ::=` -/
def PDSParameter : Ty :=
  SET [
    optional "printable-string" (constrained (SIZE 1 30) PrintableString),
    optional "teletex-string" (constrained (SIZE 1 30) TeletexString)]

/-- `PhysicalDeliveryOfficeName ::=` -/
def PhysicalDeliveryOfficeName : Ty :=
  PDSParameter

/-- `PhysicalDeliveryOfficeNumber ::=` -/
def PhysicalDeliveryOfficeNumber : Ty :=
  PDSParameter

/-- `ExtensionORAddressComponents ::=` -/
def ExtensionORAddressComponents : Ty :=
  PDSParameter

/-- `PhysicalDeliveryPersonalName ::=` -/
def PhysicalDeliveryPersonalName : Ty :=
  PDSParameter

/-- `PhysicalDeliveryOrganizationName ::=` -/
def PhysicalDeliveryOrganizationName : Ty :=
  PDSParameter

/-- `ExtensionPhysicalDeliveryAddressComponents ::=` -/
def ExtensionPhysicalDeliveryAddressComponents : Ty :=
  PDSParameter

/-- `UnformattedPostalAddress ::=` -/
def UnformattedPostalAddress : Ty :=
  SET [
    optional "printable-address" (constrained (SIZE 1 6) (SEQUENCE_OF (constrained (SIZE 1 30) PrintableString))),
    optional "teletex-string" (constrained (SIZE 1 180) TeletexString)]

/-- `StreetAddress ::=` -/
def StreetAddress : Ty :=
  PDSParameter

/-- `PostOfficeBoxAddress ::=` -/
def PostOfficeBoxAddress : Ty :=
  PDSParameter

/-- `PosteRestanteAddress ::=` -/
def PosteRestanteAddress : Ty :=
  PDSParameter

/-- `UniquePostalName ::=` -/
def UniquePostalName : Ty :=
  PDSParameter

/-- `LocalPostalAttributes ::=` -/
def LocalPostalAttributes : Ty :=
  PDSParameter

/-- `PresentationAddress ::=` -/
def PresentationAddress : Ty :=
  SEQUENCE [
    optional "pSelector" (explicit .context 0 OCTET_STRING),
    optional "sSelector" (explicit .context 1 OCTET_STRING),
    optional "tSelector" (explicit .context 2 OCTET_STRING),
    mandatory "nAddresses" (explicit .context 3 (constrained (SIZE_MAX 1) (SET_OF OCTET_STRING)))]

/-- `ExtendedNetworkAddress ::=` -/
def ExtendedNetworkAddress : Ty :=
  CHOICE [
    mandatory "e163-4-address" (SEQUENCE [
      mandatory "number" (explicit .context 0 (constrained (SIZE 1 15) NumericString)),
      optional "sub-address" (explicit .context 1 (constrained (SIZE 1 40) NumericString))]),
    mandatory "psap-address" (explicit .context 0 PresentationAddress)]

/-- `TerminalType ::=` -/
def TerminalType : Ty :=
  constrained (RANGE 0 256) (named [("telex", 3), ("teletex", 4), ("g3-facsimile", 5), ("g4-facsimile", 6), ("ia5-terminal", 7), ("videotex", 8)] INTEGER)

/-- `TeletexDomainDefinedAttribute ::=` -/
def TeletexDomainDefinedAttribute : Ty :=
  SEQUENCE [
    mandatory "type" (constrained (SIZE 1 8) TeletexString),
    mandatory "value" (constrained (SIZE 1 128) TeletexString)]

/-- `TeletexDomainDefinedAttributes ::=` -/
def TeletexDomainDefinedAttributes : Ty :=
  constrained (SIZE 1 4) (SEQUENCE_OF TeletexDomainDefinedAttribute)

/-- `Dss-Sig-Value ::=` -/
def Dss_Sig_Value : Ty :=
  SEQUENCE [
    mandatory "r" INTEGER,
    mandatory "s" INTEGER]

/-- `Dss-Parms ::=` -/
def Dss_Parms : Ty :=
  SEQUENCE [
    mandatory "p" INTEGER,
    mandatory "q" INTEGER,
    mandatory "g" INTEGER]

/-- `ValidationParms ::=` -/
def ValidationParms : Ty :=
  SEQUENCE [
    mandatory "seed" BIT_STRING,
    mandatory "pgenCounter" INTEGER]

/-- `DomainParameters ::=` -/
def DomainParameters : Ty :=
  SEQUENCE [
    mandatory "p" INTEGER,
    mandatory "g" INTEGER,
    mandatory "q" INTEGER,
    optional "j" INTEGER,
    optional "validationParms" ValidationParms]

/-- `KeyIdentifier ::=` -/
def KeyIdentifier : Ty :=
  OCTET_STRING

/-- `AnotherName ::=` -/
def AnotherName : Ty :=
  SEQUENCE [
    mandatory "type-id" OBJECT_IDENTIFIER,
    mandatory "value" (explicit .context 0 ANY)]

/-- `EDIPartyName ::=` -/
def EDIPartyName : Ty :=
  SEQUENCE [
    optional "nameAssigner" (implicit .context 0 DirectoryString),
    mandatory "partyName" (implicit .context 1 DirectoryString)]

/-- `GeneralName ::=` -/
def GeneralName : Ty :=
  CHOICE [
    mandatory "otherName" (implicit .context 0 AnotherName),
    mandatory "rfc822Name" (implicit .context 1 IA5String),
    mandatory "dNSName" (implicit .context 2 IA5String),
    mandatory "x400Address" (implicit .context 3 ORAddress),
    mandatory "directoryName" (implicit .context 4 Name),
    mandatory "ediPartyName" (implicit .context 5 EDIPartyName),
    mandatory "uniformResourceIdentifier" (implicit .context 6 IA5String),
    mandatory "iPAddress" (implicit .context 7 OCTET_STRING),
    mandatory "registeredID" (implicit .context 8 OBJECT_IDENTIFIER)]

/-- `GeneralNames ::=` -/
def GeneralNames : Ty :=
  constrained (SIZE_MAX 1) (SEQUENCE_OF GeneralName)

/-- `AuthorityKeyIdentifier ::=` -/
def AuthorityKeyIdentifier : Ty :=
  SEQUENCE [
    optional "keyIdentifier" (implicit .context 0 KeyIdentifier),
    optional "authorityCertIssuer" (implicit .context 1 GeneralNames),
    optional "authorityCertSerialNumber" (implicit .context 2 CertificateSerialNumber)]

/-- `SubjectKeyIdentifier ::=` -/
def SubjectKeyIdentifier : Ty :=
  KeyIdentifier

/-- `KeyUsage ::=` -/
def KeyUsage : Ty :=
  named [("digitalSignature", 0), ("nonRepudiation", 1), ("keyEncipherment", 2), ("dataEncipherment", 3), ("keyAgreement", 4), ("keyCertSign", 5), ("cRLSign", 6), ("encipherOnly", 7), ("decipherOnly", 8)] BIT_STRING

/-- `PrivateKeyUsagePeriod ::=` -/
def PrivateKeyUsagePeriod : Ty :=
  SEQUENCE [
    optional "notBefore" (implicit .context 0 GeneralizedTime),
    optional "notAfter" (implicit .context 1 GeneralizedTime)]

/-- `CertPolicyId ::=` -/
def CertPolicyId : Ty :=
  OBJECT_IDENTIFIER

/-- `PolicyQualifierId ::=` -/
def PolicyQualifierId : Ty :=
  constrained (VALUES [.oid [1, 3, 6, 1, 5, 5, 7, 2, 1], .oid [1, 3, 6, 1, 5, 5, 7, 2, 2]]) OBJECT_IDENTIFIER

/-- `PolicyQualifierInfo ::=` -/
def PolicyQualifierInfo : Ty :=
  SEQUENCE [
    mandatory "policyQualifierId" PolicyQualifierId,
    mandatory "qualifier" ANY]

/-- `PolicyInformation ::=` -/
def PolicyInformation : Ty :=
  SEQUENCE [
    mandatory "policyIdentifier" CertPolicyId,
    optional "policyQualifiers" (constrained (SIZE_MAX 1) (SEQUENCE_OF PolicyQualifierInfo))]

/-- `CertificatePolicies ::=` -/
def CertificatePolicies : Ty :=
  constrained (SIZE_MAX 1) (SEQUENCE_OF PolicyInformation)

/-- `CPSuri ::=` -/
def CPSuri : Ty :=
  IA5String

/-- `DisplayText ::=` -/
def DisplayText : Ty :=
  CHOICE [
    mandatory "visibleString" (constrained (SIZE 1 200) VisibleString),
    mandatory "bmpString" (constrained (SIZE 1 200) BMPString),
    mandatory "utf8String" (constrained (SIZE 1 200) UTF8String)]

/-- `NoticeReference ::=` -/
def NoticeReference : Ty :=
  SEQUENCE [
    mandatory "organization" DisplayText,
    mandatory "noticeNumbers" (SEQUENCE_OF INTEGER)]

/-- `UserNotice ::=` -/
def UserNotice : Ty :=
  SEQUENCE [
    optional "noticeRef" NoticeReference,
    optional "explicitText" DisplayText]

/-- `PolicyMappings ::=` -/
def PolicyMappings : Ty :=
  constrained (SIZE_MAX 1) (SEQUENCE_OF (SEQUENCE [
    mandatory "issuerDomainPolicy" CertPolicyId,
    mandatory "subjectDomainPolicy" CertPolicyId]))

/-- `SubjectAltName ::=` -/
def SubjectAltName : Ty :=
  GeneralNames

/-- `IssuerAltName ::=` -/
def IssuerAltName : Ty :=
  GeneralNames

/-- `SubjectDirectoryAttributes ::=` -/
def SubjectDirectoryAttributes : Ty :=
  constrained (SIZE_MAX 1) (SEQUENCE_OF Attribute)

/-- `BasicConstraints ::=` -/
def BasicConstraints : Ty :=
  SEQUENCE [
    default "cA" BOOLEAN (.int 0),
    optional "pathLenConstraint" (constrained (RANGE_MAX 0) INTEGER)]

/-- `BaseDistance ::=` -/
def BaseDistance : Ty :=
  constrained (RANGE_MAX 0) INTEGER

/-- `GeneralSubtree ::=` -/
def GeneralSubtree : Ty :=
  SEQUENCE [
    mandatory "base" GeneralName,
    default "minimum" (implicit .context 0 BaseDistance) (.int 0),
    optional "maximum" (implicit .context 1 BaseDistance)]

/-- `GeneralSubtrees ::=` -/
def GeneralSubtrees : Ty :=
  constrained (SIZE_MAX 1) (SEQUENCE_OF GeneralSubtree)

/-- `NameConstraints ::=` -/
def NameConstraints : Ty :=
  SEQUENCE [
    optional "permittedSubtrees" (implicit .context 0 GeneralSubtrees),
    optional "excludedSubtrees" (implicit .context 1 GeneralSubtrees)]

/-- `SkipCerts ::=` -/
def SkipCerts : Ty :=
  constrained (RANGE_MAX 0) INTEGER

/-- `PolicyConstraints ::=` -/
def PolicyConstraints : Ty :=
  SEQUENCE [
    optional "requireExplicitPolicy" (implicit .context 0 SkipCerts),
    optional "inhibitPolicyMapping" (implicit .context 1 SkipCerts)]

/-- `DistributionPointName ::=` -/
def DistributionPointName : Ty :=
  CHOICE [
    mandatory "fullName" (implicit .context 0 GeneralNames),
    mandatory "nameRelativeToCRLIssuer" (implicit .context 1 RelativeDistinguishedName)]

/-- `ReasonFlags ::=` -/
def ReasonFlags : Ty :=
  named [("unused", 0), ("keyCompromise", 1), ("cACompromise", 2), ("affiliationChanged", 3), ("superseded", 4), ("cessationOfOperation", 5), ("certificateHold", 6)] BIT_STRING

/-- `DistributionPoint ::=` -/
def DistributionPoint : Ty :=
  SEQUENCE [
    optional "distributionPoint" (implicit .context 0 DistributionPointName),
    optional "reasons" (implicit .context 1 ReasonFlags),
    optional "cRLIssuer" (implicit .context 2 GeneralNames)]

/-- `CRLDistPointsSyntax ::=` -/
def CRLDistPointsSyntax : Ty :=
  constrained (SIZE_MAX 1) (SEQUENCE_OF DistributionPoint)

/-- `KeyPurposeId ::=` -/
def KeyPurposeId : Ty :=
  OBJECT_IDENTIFIER

/-- `ExtKeyUsageSyntax ::=` -/
def ExtKeyUsageSyntax : Ty :=
  constrained (SIZE_MAX 1) (SEQUENCE_OF KeyPurposeId)

/-- `AccessDescription ::=` -/
def AccessDescription : Ty :=
  SEQUENCE [
    mandatory "accessMethod" OBJECT_IDENTIFIER,
    mandatory "accessLocation" GeneralName]

/-- `AuthorityInfoAccessSyntax ::=` -/
def AuthorityInfoAccessSyntax : Ty :=
  constrained (SIZE_MAX 1) (SEQUENCE_OF AccessDescription)

/-- `CRLNumber ::=` -/
def CRLNumber : Ty :=
  constrained (RANGE_MAX 0) INTEGER

/-- `IssuingDistributionPoint ::=` -/
def IssuingDistributionPoint : Ty :=
  SEQUENCE [
    optional "distributionPoint" (implicit .context 0 DistributionPointName),
    default "onlyContainsUserCerts" (implicit .context 1 BOOLEAN) (.int 0),
    default "onlyContainsCACerts" (implicit .context 2 BOOLEAN) (.int 0),
    optional "onlySomeReasons" (implicit .context 3 ReasonFlags),
    default "indirectCRL" (implicit .context 4 BOOLEAN) (.int 0)]

/-- `BaseCRLNumber ::=` -/
def BaseCRLNumber : Ty :=
  CRLNumber

/-- `CRLReason ::=` -/
def CRLReason : Ty :=
  named [("unspecified", 0), ("keyCompromise", 1), ("cACompromise", 2), ("affiliationChanged", 3), ("superseded", 4), ("cessationOfOperation", 5), ("certificateHold", 6), ("removeFromCRL", 8)] ENUMERATED

/-- `CertificateIssuer ::=` -/
def CertificateIssuer : Ty :=
  GeneralNames

/-- `HoldInstructionCode ::=` -/
def HoldInstructionCode : Ty :=
  OBJECT_IDENTIFIER

/-- `InvalidityDate ::=` -/
def InvalidityDate : Ty :=
  GeneralizedTime

/-- Classes of rfc2459.py and the types of the standard they implement. -/
def entries : List Entry :=
  [⟨"rfc2459.X520name", Verif.Rfc2459.X520name, X520name, .same, false⟩,
   ⟨"rfc2459.X520CommonName", Verif.Rfc2459.X520CommonName, X520CommonName, .same, false⟩,
   ⟨"rfc2459.X520LocalityName", Verif.Rfc2459.X520LocalityName, X520LocalityName, .same, false⟩,
   ⟨"rfc2459.X520StateOrProvinceName", Verif.Rfc2459.X520StateOrProvinceName, X520StateOrProvinceName, .same, false⟩,
   ⟨"rfc2459.X520OrganizationName", Verif.Rfc2459.X520OrganizationName, X520OrganizationName, .same, false⟩,
   ⟨"rfc2459.X520OrganizationalUnitName", Verif.Rfc2459.X520OrganizationalUnitName, X520OrganizationalUnitName, .same, false⟩,
   ⟨"rfc2459.X520Title", Verif.Rfc2459.X520Title, X520Title, .same, false⟩,
   ⟨"rfc2459.X520dnQualifier", Verif.Rfc2459.X520dnQualifier, X520dnQualifier, .same, false⟩,
   ⟨"rfc2459.X520countryName", Verif.Rfc2459.X520countryName, X520countryName, .same, false⟩,
   ⟨"rfc2459.Pkcs9email", Verif.Rfc2459.Pkcs9email, Pkcs9email, .same, false⟩,
   ⟨"rfc2459.DirectoryString", Verif.Rfc2459.DirectoryString, DirectoryString, .widened, true⟩,
   ⟨"rfc2459.AlgorithmIdentifier", Verif.Rfc2459.AlgorithmIdentifier, AlgorithmIdentifier, .same, false⟩,
   ⟨"rfc2459.Dss_Sig_Value", Verif.Rfc2459.Dss_Sig_Value, Dss_Sig_Value, .same, false⟩,
   ⟨"rfc2459.ValidationParms", Verif.Rfc2459.ValidationParms, ValidationParms, .same, false⟩,
   ⟨"rfc2459.DomainParameters", Verif.Rfc2459.DomainParameters, DomainParameters, (.refused [48, 9, 2, 1, 0, 2, 1, 0, 2, 1, 0]), false⟩,
   ⟨"rfc2459.Dss_Parms", Verif.Rfc2459.Dss_Parms, Dss_Parms, .same, false⟩,
   ⟨"rfc2459.TeletexDomainDefinedAttribute", Verif.Rfc2459.TeletexDomainDefinedAttribute, TeletexDomainDefinedAttribute, .relaxed, false⟩,
   ⟨"rfc2459.TeletexDomainDefinedAttributes", Verif.Rfc2459.TeletexDomainDefinedAttributes, TeletexDomainDefinedAttributes, .relaxed, false⟩,
   ⟨"rfc2459.TerminalType", Verif.Rfc2459.TerminalType, TerminalType, (.refused [2, 1, 0]), true⟩,
   ⟨"rfc2459.PresentationAddress", Verif.Rfc2459.PresentationAddress, PresentationAddress, .widened, false⟩,
   ⟨"rfc2459.ExtendedNetworkAddress", Verif.Rfc2459.ExtendedNetworkAddress, ExtendedNetworkAddress, .widened, false⟩,
   ⟨"rfc2459.PDSParameter", Verif.Rfc2459.PDSParameter, PDSParameter, .same, false⟩,
   ⟨"rfc2459.LocalPostalAttributes", Verif.Rfc2459.LocalPostalAttributes, LocalPostalAttributes, .same, false⟩,
   ⟨"rfc2459.UniquePostalName", Verif.Rfc2459.UniquePostalName, UniquePostalName, .same, false⟩,
   ⟨"rfc2459.PosteRestanteAddress", Verif.Rfc2459.PosteRestanteAddress, PosteRestanteAddress, .same, false⟩,
   ⟨"rfc2459.PostOfficeBoxAddress", Verif.Rfc2459.PostOfficeBoxAddress, PostOfficeBoxAddress, .same, false⟩,
   ⟨"rfc2459.StreetAddress", Verif.Rfc2459.StreetAddress, StreetAddress, .same, false⟩,
   ⟨"rfc2459.UnformattedPostalAddress", Verif.Rfc2459.UnformattedPostalAddress, UnformattedPostalAddress, (.refused [49, 14, 48, 12, 19, 10, 48, 48, 48, 48, 48, 48, 48, 48, 48, 48]), false⟩,
   ⟨"rfc2459.PhysicalDeliveryOfficeName", Verif.Rfc2459.PhysicalDeliveryOfficeName, PhysicalDeliveryOfficeName, .same, false⟩,
   ⟨"rfc2459.PhysicalDeliveryOfficeNumber", Verif.Rfc2459.PhysicalDeliveryOfficeNumber, PhysicalDeliveryOfficeNumber, .same, false⟩,
   ⟨"rfc2459.ExtensionORAddressComponents", Verif.Rfc2459.ExtensionORAddressComponents, ExtensionORAddressComponents, .same, false⟩,
   ⟨"rfc2459.PhysicalDeliveryPersonalName", Verif.Rfc2459.PhysicalDeliveryPersonalName, PhysicalDeliveryPersonalName, .same, false⟩,
   ⟨"rfc2459.PhysicalDeliveryOrganizationName", Verif.Rfc2459.PhysicalDeliveryOrganizationName, PhysicalDeliveryOrganizationName, .same, false⟩,
   ⟨"rfc2459.ExtensionPhysicalDeliveryAddressComponents", Verif.Rfc2459.ExtensionPhysicalDeliveryAddressComponents, ExtensionPhysicalDeliveryAddressComponents, .same, false⟩,
   ⟨"rfc2459.PostalCode", Verif.Rfc2459.PostalCode, PostalCode, .same, false⟩,
   ⟨"rfc2459.PhysicalDeliveryCountryName", Verif.Rfc2459.PhysicalDeliveryCountryName, PhysicalDeliveryCountryName, .same, false⟩,
   ⟨"rfc2459.PDSName", Verif.Rfc2459.PDSName, PDSName, .same, false⟩,
   ⟨"rfc2459.TeletexOrganizationalUnitName", Verif.Rfc2459.TeletexOrganizationalUnitName, TeletexOrganizationalUnitName, .same, false⟩,
   ⟨"rfc2459.TeletexOrganizationalUnitNames", Verif.Rfc2459.TeletexOrganizationalUnitNames, TeletexOrganizationalUnitNames, .same, false⟩,
   ⟨"rfc2459.TeletexPersonalName", Verif.Rfc2459.TeletexPersonalName, TeletexPersonalName, .same, false⟩,
   ⟨"rfc2459.TeletexOrganizationName", Verif.Rfc2459.TeletexOrganizationName, TeletexOrganizationName, .same, false⟩,
   ⟨"rfc2459.TeletexCommonName", Verif.Rfc2459.TeletexCommonName, TeletexCommonName, .same, false⟩,
   ⟨"rfc2459.CommonName", Verif.Rfc2459.CommonName, CommonName, .same, false⟩,
   ⟨"rfc2459.ExtensionAttribute", Verif.Rfc2459.ExtensionAttribute, ExtensionAttribute, (.refused [48, 9, 160, 3, 2, 1, 0, 161, 2, 5, 0]), false⟩,
   ⟨"rfc2459.ExtensionAttributes", Verif.Rfc2459.ExtensionAttributes, ExtensionAttributes, (.refused [49, 11, 48, 9, 160, 3, 2, 1, 0, 161, 2, 5, 0]), false⟩,
   ⟨"rfc2459.BuiltInDomainDefinedAttribute", Verif.Rfc2459.BuiltInDomainDefinedAttribute, BuiltInDomainDefinedAttribute, .same, false⟩,
   ⟨"rfc2459.BuiltInDomainDefinedAttributes", Verif.Rfc2459.BuiltInDomainDefinedAttributes, BuiltInDomainDefinedAttributes, .same, false⟩,
   ⟨"rfc2459.OrganizationalUnitName", Verif.Rfc2459.OrganizationalUnitName, OrganizationalUnitName, .same, false⟩,
   ⟨"rfc2459.OrganizationalUnitNames", Verif.Rfc2459.OrganizationalUnitNames, OrganizationalUnitNames, .same, false⟩,
   ⟨"rfc2459.PersonalName", Verif.Rfc2459.PersonalName, PersonalName, .same, false⟩,
   ⟨"rfc2459.NumericUserIdentifier", Verif.Rfc2459.NumericUserIdentifier, NumericUserIdentifier, .same, false⟩,
   ⟨"rfc2459.OrganizationName", Verif.Rfc2459.OrganizationName, OrganizationName, .same, false⟩,
   ⟨"rfc2459.PrivateDomainName", Verif.Rfc2459.PrivateDomainName, PrivateDomainName, .same, false⟩,
   ⟨"rfc2459.TerminalIdentifier", Verif.Rfc2459.TerminalIdentifier, TerminalIdentifier, .same, false⟩,
   ⟨"rfc2459.X121Address", Verif.Rfc2459.X121Address, X121Address, .same, false⟩,
   ⟨"rfc2459.NetworkAddress", Verif.Rfc2459.NetworkAddress, NetworkAddress, .same, false⟩,
   ⟨"rfc2459.AdministrationDomainName", Verif.Rfc2459.AdministrationDomainName, AdministrationDomainName, .same, false⟩,
   ⟨"rfc2459.CountryName", Verif.Rfc2459.CountryName, CountryName, .same, false⟩,
   ⟨"rfc2459.BuiltInStandardAttributes", Verif.Rfc2459.BuiltInStandardAttributes, BuiltInStandardAttributes, .same, false⟩,
   ⟨"rfc2459.ORAddress", Verif.Rfc2459.ORAddress, ORAddress, (.refused [48, 15, 48, 0, 49, 11, 48, 9, 160, 3, 2, 1, 0, 161, 2, 5, 0]), false⟩,
   ⟨"rfc2459.InvalidityDate", Verif.Rfc2459.InvalidityDate, InvalidityDate, .same, false⟩,
   ⟨"rfc2459.HoldInstructionCode", Verif.Rfc2459.HoldInstructionCode, HoldInstructionCode, .same, false⟩,
   ⟨"rfc2459.CRLReason", Verif.Rfc2459.CRLReason, CRLReason, .same, false⟩,
   ⟨"rfc2459.CRLNumber", Verif.Rfc2459.CRLNumber, CRLNumber, (.refused [2, 1, 0]), false⟩,
   ⟨"rfc2459.BaseCRLNumber", Verif.Rfc2459.BaseCRLNumber, BaseCRLNumber, (.refused [2, 1, 0]), false⟩,
   ⟨"rfc2459.KeyPurposeId", Verif.Rfc2459.KeyPurposeId, KeyPurposeId, .same, false⟩,
   ⟨"rfc2459.ExtKeyUsageSyntax", Verif.Rfc2459.ExtKeyUsageSyntax, ExtKeyUsageSyntax, .same, false⟩,
   ⟨"rfc2459.ReasonFlags", Verif.Rfc2459.ReasonFlags, ReasonFlags, .same, false⟩,
   ⟨"rfc2459.SkipCerts", Verif.Rfc2459.SkipCerts, SkipCerts, (.refused [2, 1, 0]), false⟩,
   ⟨"rfc2459.PolicyConstraints", Verif.Rfc2459.PolicyConstraints, PolicyConstraints, (.refused [48, 3, 128, 1, 0]), false⟩,
   ⟨"rfc2459.BasicConstraints", Verif.Rfc2459.BasicConstraints, BasicConstraints, .same, false⟩,
   ⟨"rfc2459.EDIPartyName", Verif.Rfc2459.EDIPartyName, EDIPartyName, .widened, true⟩,
   ⟨"rfc2459.BaseDistance", Verif.Rfc2459.BaseDistance, BaseDistance, .same, false⟩,
   ⟨"rfc2459.DisplayText", Verif.Rfc2459.DisplayText, DisplayText, .same, false⟩,
   ⟨"rfc2459.NoticeReference", Verif.Rfc2459.NoticeReference, NoticeReference, .same, false⟩,
   ⟨"rfc2459.UserNotice", Verif.Rfc2459.UserNotice, UserNotice, .same, false⟩,
   ⟨"rfc2459.CPSuri", Verif.Rfc2459.CPSuri, CPSuri, .same, false⟩,
   ⟨"rfc2459.PolicyQualifierId", Verif.Rfc2459.PolicyQualifierId, PolicyQualifierId, .same, false⟩,
   ⟨"rfc2459.CertPolicyId", Verif.Rfc2459.CertPolicyId, CertPolicyId, .same, false⟩,
   ⟨"rfc2459.PolicyQualifierInfo", Verif.Rfc2459.PolicyQualifierInfo, PolicyQualifierInfo, .same, false⟩,
   ⟨"rfc2459.PolicyInformation", Verif.Rfc2459.PolicyInformation, PolicyInformation, .same, false⟩,
   ⟨"rfc2459.CertificatePolicies", Verif.Rfc2459.CertificatePolicies, CertificatePolicies, .same, false⟩,
   ⟨"rfc2459.PolicyMappings", Verif.Rfc2459.PolicyMappings, PolicyMappings, .same, false⟩,
   ⟨"rfc2459.PrivateKeyUsagePeriod", Verif.Rfc2459.PrivateKeyUsagePeriod, PrivateKeyUsagePeriod, .same, false⟩,
   ⟨"rfc2459.KeyUsage", Verif.Rfc2459.KeyUsage, KeyUsage, .same, false⟩,
   ⟨"rfc2459.KeyIdentifier", Verif.Rfc2459.KeyIdentifier, KeyIdentifier, .same, false⟩,
   ⟨"rfc2459.SubjectKeyIdentifier", Verif.Rfc2459.SubjectKeyIdentifier, SubjectKeyIdentifier, .same, false⟩,
   ⟨"rfc2459.AttributeValue", Verif.Rfc2459.AttributeValue, AttributeValue, .same, false⟩,
   ⟨"rfc2459.AttributeType", Verif.Rfc2459.AttributeType, AttributeType, .same, false⟩,
   ⟨"rfc2459.AttributeTypeAndValue", Verif.Rfc2459.AttributeTypeAndValue, AttributeTypeAndValue, .same, false⟩,
   ⟨"rfc2459.Attribute", Verif.Rfc2459.Attribute, Attribute, .same, true⟩,
   ⟨"rfc2459.SubjectDirectoryAttributes", Verif.Rfc2459.SubjectDirectoryAttributes, SubjectDirectoryAttributes, .same, true⟩,
   ⟨"rfc2459.RelativeDistinguishedName", Verif.Rfc2459.RelativeDistinguishedName, RelativeDistinguishedName, .relaxed, false⟩,
   ⟨"rfc2459.RDNSequence", Verif.Rfc2459.RDNSequence, RDNSequence, .relaxed, false⟩,
   ⟨"rfc2459.Name", Verif.Rfc2459.Name, Name, .relaxed, false⟩,
   ⟨"rfc2459.CertificateSerialNumber", Verif.Rfc2459.CertificateSerialNumber, CertificateSerialNumber, .same, false⟩,
   ⟨"rfc2459.AnotherName", Verif.Rfc2459.AnotherName, AnotherName, .same, false⟩,
   ⟨"rfc2459.GeneralName", Verif.Rfc2459.GeneralName, GeneralName, (.refused [163, 15, 48, 0, 49, 11, 48, 9, 160, 3, 2, 1, 0, 161, 2, 5, 0]), true⟩,
   ⟨"rfc2459.GeneralNames", Verif.Rfc2459.GeneralNames, GeneralNames, (.refused [48, 17, 163, 15, 48, 0, 49, 11, 48, 9, 160, 3, 2, 1, 0, 161, 2, 5, 0]), true⟩,
   ⟨"rfc2459.AccessDescription", Verif.Rfc2459.AccessDescription, AccessDescription, (.refused [48, 20, 6, 1, 43, 163, 15, 48, 0, 49, 11, 48, 9, 160, 3, 2, 1, 0, 161, 2, 5, 0]), true⟩,
   ⟨"rfc2459.AuthorityInfoAccessSyntax", Verif.Rfc2459.AuthorityInfoAccessSyntax, AuthorityInfoAccessSyntax, (.refused [48, 22, 48, 20, 6, 1, 43, 163, 15, 48, 0, 49, 11, 48, 9, 160, 3, 2, 1, 0, 161, 2, 5, 0]), true⟩,
   ⟨"rfc2459.AuthorityKeyIdentifier", Verif.Rfc2459.AuthorityKeyIdentifier, AuthorityKeyIdentifier, (.refused [48, 19, 161, 17, 163, 15, 48, 0, 49, 11, 48, 9, 160, 3, 2, 1, 0, 161, 2, 5, 0]), true⟩,
   ⟨"rfc2459.DistributionPointName", Verif.Rfc2459.DistributionPointName, DistributionPointName, (.refused [160, 17, 163, 15, 48, 0, 49, 11, 48, 9, 160, 3, 2, 1, 0, 161, 2, 5, 0]), true⟩,
   ⟨"rfc2459.DistributionPoint", Verif.Rfc2459.DistributionPoint, DistributionPoint, (.refused [48, 19, 162, 17, 163, 15, 48, 0, 49, 11, 48, 9, 160, 3, 2, 1, 0, 161, 2, 5, 0]), true⟩,
   ⟨"rfc2459.CRLDistPointsSyntax", Verif.Rfc2459.CRLDistPointsSyntax, CRLDistPointsSyntax, (.refused [48, 21, 48, 19, 162, 17, 163, 15, 48, 0, 49, 11, 48, 9, 160, 3, 2, 1, 0, 161, 2, 5, 0]), true⟩,
   ⟨"rfc2459.IssuingDistributionPoint", Verif.Rfc2459.IssuingDistributionPoint, IssuingDistributionPoint, (.refused [48, 0]), true⟩,
   ⟨"rfc2459.GeneralSubtree", Verif.Rfc2459.GeneralSubtree, GeneralSubtree, (.refused [48, 17, 163, 15, 48, 0, 49, 11, 48, 9, 160, 3, 2, 1, 0, 161, 2, 5, 0]), true⟩,
   ⟨"rfc2459.GeneralSubtrees", Verif.Rfc2459.GeneralSubtrees, GeneralSubtrees, (.refused [48, 19, 48, 17, 163, 15, 48, 0, 49, 11, 48, 9, 160, 3, 2, 1, 0, 161, 2, 5, 0]), true⟩,
   ⟨"rfc2459.NameConstraints", Verif.Rfc2459.NameConstraints, NameConstraints, (.refused [48, 21, 160, 19, 48, 17, 163, 15, 48, 0, 49, 11, 48, 9, 160, 3, 2, 1, 0, 161, 2, 5, 0]), true⟩,
   ⟨"rfc2459.CertificateIssuer", Verif.Rfc2459.CertificateIssuer, CertificateIssuer, (.refused [48, 17, 163, 15, 48, 0, 49, 11, 48, 9, 160, 3, 2, 1, 0, 161, 2, 5, 0]), true⟩,
   ⟨"rfc2459.SubjectAltName", Verif.Rfc2459.SubjectAltName, SubjectAltName, (.refused [48, 17, 163, 15, 48, 0, 49, 11, 48, 9, 160, 3, 2, 1, 0, 161, 2, 5, 0]), true⟩,
   ⟨"rfc2459.IssuerAltName", Verif.Rfc2459.IssuerAltName, IssuerAltName, (.refused [48, 17, 163, 15, 48, 0, 49, 11, 48, 9, 160, 3, 2, 1, 0, 161, 2, 5, 0]), true⟩,
   ⟨"rfc2459.Extension", Verif.Rfc2459.Extension, Extension, .same, false⟩,
   ⟨"rfc2459.Extensions", Verif.Rfc2459.Extensions, Extensions, .same, false⟩,
   ⟨"rfc2459.SubjectPublicKeyInfo", Verif.Rfc2459.SubjectPublicKeyInfo, SubjectPublicKeyInfo, .same, false⟩,
   ⟨"rfc2459.UniqueIdentifier", Verif.Rfc2459.UniqueIdentifier, UniqueIdentifier, .same, false⟩,
   ⟨"rfc2459.Time", Verif.Rfc2459.Time, Time, .same, false⟩,
   ⟨"rfc2459.Validity", Verif.Rfc2459.Validity, Validity, .same, false⟩,
   ⟨"rfc2459.Version", Verif.Rfc2459.Version, Version, .same, false⟩,
   ⟨"rfc2459.TBSCertificate", Verif.Rfc2459.TBSCertificate, TBSCertificate, .relaxed, false⟩,
   ⟨"rfc2459.Certificate", Verif.Rfc2459.Certificate, Certificate, .relaxed, false⟩,
   ⟨"rfc2459.TBSCertList", Verif.Rfc2459.TBSCertList, TBSCertList, .relaxed, false⟩,
   ⟨"rfc2459.CertificateList", Verif.Rfc2459.CertificateList, CertificateList, .relaxed, false⟩]

/-- Classes of rfc2459.py the transcription of the standard has no type for. -/
def beyond : List String :=
  ["rfc2459.UniversalString",
   "rfc2459.BMPString",
   "rfc2459.UTF8String",
   "rfc2459.DSAPrivateKey",
   "rfc2459.E163_4_address",
   "rfc2459.PolicyMapping",
   "rfc2459.RevokedCertificate"]

/-- Constants of rfc2459.py and the values the standard gives them. -/
def constants : List Constant :=
  [⟨"rfc2459.ub_name", Verif.Rfc2459.ub_name, INTEGER, .int 32768, true⟩,
   ⟨"rfc2459.ub_common_name", Verif.Rfc2459.ub_common_name, INTEGER, .int 64, true⟩,
   ⟨"rfc2459.ub_locality_name", Verif.Rfc2459.ub_locality_name, INTEGER, .int 128, true⟩,
   ⟨"rfc2459.ub_state_name", Verif.Rfc2459.ub_state_name, INTEGER, .int 128, true⟩,
   ⟨"rfc2459.ub_organization_name", Verif.Rfc2459.ub_organization_name, INTEGER, .int 64, true⟩,
   ⟨"rfc2459.ub_organizational_unit_name", Verif.Rfc2459.ub_organizational_unit_name, INTEGER, .int 64, true⟩,
   ⟨"rfc2459.ub_title", Verif.Rfc2459.ub_title, INTEGER, .int 64, true⟩,
   ⟨"rfc2459.ub_match", Verif.Rfc2459.ub_match, INTEGER, .int 128, true⟩,
   ⟨"rfc2459.ub_emailaddress_length", Verif.Rfc2459.ub_emailaddress_length, INTEGER, .int 128, true⟩,
   ⟨"rfc2459.ub_common_name_length", Verif.Rfc2459.ub_common_name_length, INTEGER, .int 64, true⟩,
   ⟨"rfc2459.ub_country_name_alpha_length", Verif.Rfc2459.ub_country_name_alpha_length, INTEGER, .int 2, true⟩,
   ⟨"rfc2459.ub_country_name_numeric_length", Verif.Rfc2459.ub_country_name_numeric_length, INTEGER, .int 3, true⟩,
   ⟨"rfc2459.ub_domain_defined_attributes", Verif.Rfc2459.ub_domain_defined_attributes, INTEGER, .int 4, true⟩,
   ⟨"rfc2459.ub_domain_defined_attribute_type_length", Verif.Rfc2459.ub_domain_defined_attribute_type_length, INTEGER, .int 8, true⟩,
   ⟨"rfc2459.ub_domain_defined_attribute_value_length", Verif.Rfc2459.ub_domain_defined_attribute_value_length, INTEGER, .int 128, true⟩,
   ⟨"rfc2459.ub_domain_name_length", Verif.Rfc2459.ub_domain_name_length, INTEGER, .int 16, true⟩,
   ⟨"rfc2459.ub_extension_attributes", Verif.Rfc2459.ub_extension_attributes, INTEGER, .int 256, true⟩,
   ⟨"rfc2459.ub_e163_4_number_length", Verif.Rfc2459.ub_e163_4_number_length, INTEGER, .int 15, true⟩,
   ⟨"rfc2459.ub_e163_4_sub_address_length", Verif.Rfc2459.ub_e163_4_sub_address_length, INTEGER, .int 40, true⟩,
   ⟨"rfc2459.ub_generation_qualifier_length", Verif.Rfc2459.ub_generation_qualifier_length, INTEGER, .int 3, true⟩,
   ⟨"rfc2459.ub_given_name_length", Verif.Rfc2459.ub_given_name_length, INTEGER, .int 16, true⟩,
   ⟨"rfc2459.ub_initials_length", Verif.Rfc2459.ub_initials_length, INTEGER, .int 5, true⟩,
   ⟨"rfc2459.ub_integer_options", Verif.Rfc2459.ub_integer_options, INTEGER, .int 256, true⟩,
   ⟨"rfc2459.ub_numeric_user_id_length", Verif.Rfc2459.ub_numeric_user_id_length, INTEGER, .int 32, true⟩,
   ⟨"rfc2459.ub_organization_name_length", Verif.Rfc2459.ub_organization_name_length, INTEGER, .int 64, true⟩,
   ⟨"rfc2459.ub_organizational_unit_name_length", Verif.Rfc2459.ub_organizational_unit_name_length, INTEGER, .int 32, true⟩,
   ⟨"rfc2459.ub_organizational_units", Verif.Rfc2459.ub_organizational_units, INTEGER, .int 4, true⟩,
   ⟨"rfc2459.ub_pds_name_length", Verif.Rfc2459.ub_pds_name_length, INTEGER, .int 16, true⟩,
   ⟨"rfc2459.ub_pds_parameter_length", Verif.Rfc2459.ub_pds_parameter_length, INTEGER, .int 30, true⟩,
   ⟨"rfc2459.ub_pds_physical_address_lines", Verif.Rfc2459.ub_pds_physical_address_lines, INTEGER, .int 6, true⟩,
   ⟨"rfc2459.ub_postal_code_length", Verif.Rfc2459.ub_postal_code_length, INTEGER, .int 16, true⟩,
   ⟨"rfc2459.ub_surname_length", Verif.Rfc2459.ub_surname_length, INTEGER, .int 40, true⟩,
   ⟨"rfc2459.ub_terminal_id_length", Verif.Rfc2459.ub_terminal_id_length, INTEGER, .int 24, true⟩,
   ⟨"rfc2459.ub_unformatted_address_length", Verif.Rfc2459.ub_unformatted_address_length, INTEGER, .int 180, true⟩,
   ⟨"rfc2459.ub_x121_address_length", Verif.Rfc2459.ub_x121_address_length, INTEGER, .int 16, true⟩,
   ⟨"rfc2459.id_pkix", Verif.Rfc2459.id_pkix, OBJECT_IDENTIFIER, .oid [1, 3, 6, 1, 5, 5, 7], true⟩,
   ⟨"rfc2459.id_pe", Verif.Rfc2459.id_pe, OBJECT_IDENTIFIER, .oid [1, 3, 6, 1, 5, 5, 7, 1], true⟩,
   ⟨"rfc2459.id_qt", Verif.Rfc2459.id_qt, OBJECT_IDENTIFIER, .oid [1, 3, 6, 1, 5, 5, 7, 2], true⟩,
   ⟨"rfc2459.id_kp", Verif.Rfc2459.id_kp, OBJECT_IDENTIFIER, .oid [1, 3, 6, 1, 5, 5, 7, 3], true⟩,
   ⟨"rfc2459.id_ad", Verif.Rfc2459.id_ad, OBJECT_IDENTIFIER, .oid [1, 3, 6, 1, 5, 5, 7, 48], true⟩,
   ⟨"rfc2459.id_qt_cps", Verif.Rfc2459.id_qt_cps, OBJECT_IDENTIFIER, .oid [1, 3, 6, 1, 5, 5, 7, 2, 1], true⟩,
   ⟨"rfc2459.id_qt_unotice", Verif.Rfc2459.id_qt_unotice, OBJECT_IDENTIFIER, .oid [1, 3, 6, 1, 5, 5, 7, 2, 2], true⟩,
   ⟨"rfc2459.id_ad_ocsp", Verif.Rfc2459.id_ad_ocsp, OBJECT_IDENTIFIER, .oid [1, 3, 6, 1, 5, 5, 7, 48, 1], true⟩,
   ⟨"rfc2459.id_ad_caIssuers", Verif.Rfc2459.id_ad_caIssuers, OBJECT_IDENTIFIER, .oid [1, 3, 6, 1, 5, 5, 7, 48, 2], true⟩,
   ⟨"rfc2459.id_at", Verif.Rfc2459.id_at, OBJECT_IDENTIFIER, .oid [2, 5, 4], true⟩,
   ⟨"rfc2459.id_at_name", Verif.Rfc2459.id_at_name, OBJECT_IDENTIFIER, .oid [2, 5, 4, 41], true⟩,
   ⟨"rfc2459.id_at_surname", Verif.Rfc2459.id_at_surname, OBJECT_IDENTIFIER, .oid [2, 5, 4, 4], true⟩,
   ⟨"rfc2459.id_at_givenName", Verif.Rfc2459.id_at_givenName, OBJECT_IDENTIFIER, .oid [2, 5, 4, 42], true⟩,
   ⟨"rfc2459.id_at_initials", Verif.Rfc2459.id_at_initials, OBJECT_IDENTIFIER, .oid [2, 5, 4, 43], true⟩,
   ⟨"rfc2459.id_at_generationQualifier", Verif.Rfc2459.id_at_generationQualifier, OBJECT_IDENTIFIER, .oid [2, 5, 4, 44], true⟩,
   ⟨"rfc2459.id_at_commonName", Verif.Rfc2459.id_at_commonName, OBJECT_IDENTIFIER, .oid [2, 5, 4, 3], true⟩,
   ⟨"rfc2459.id_at_localityName", Verif.Rfc2459.id_at_localityName, OBJECT_IDENTIFIER, .oid [2, 5, 4, 7], true⟩,
   ⟨"rfc2459.id_at_stateOrProvinceName", Verif.Rfc2459.id_at_stateOrProvinceName, OBJECT_IDENTIFIER, .oid [2, 5, 4, 8], true⟩,
   ⟨"rfc2459.id_at_organizationName", Verif.Rfc2459.id_at_organizationName, OBJECT_IDENTIFIER, .oid [2, 5, 4, 10], true⟩,
   ⟨"rfc2459.id_at_organizationalUnitName", Verif.Rfc2459.id_at_organizationalUnitName, OBJECT_IDENTIFIER, .oid [2, 5, 4, 11], true⟩,
   ⟨"rfc2459.id_at_title", Verif.Rfc2459.id_at_title, OBJECT_IDENTIFIER, .oid [2, 5, 4, 12], true⟩,
   ⟨"rfc2459.id_at_dnQualifier", Verif.Rfc2459.id_at_dnQualifier, OBJECT_IDENTIFIER, .oid [2, 5, 4, 46], true⟩,
   ⟨"rfc2459.id_at_countryName", Verif.Rfc2459.id_at_countryName, OBJECT_IDENTIFIER, .oid [2, 5, 4, 6], true⟩,
   ⟨"rfc2459.pkcs_9", Verif.Rfc2459.pkcs_9, OBJECT_IDENTIFIER, .oid [1, 2, 840, 113549, 1, 9], true⟩,
   ⟨"rfc2459.emailAddress", Verif.Rfc2459.emailAddress, OBJECT_IDENTIFIER, .oid [1, 2, 840, 113549, 1, 9, 1], true⟩,
   ⟨"rfc2459.pkcs_1", Verif.Rfc2459.pkcs_1, OBJECT_IDENTIFIER, .oid [1, 2, 840, 113549, 1, 1], true⟩,
   ⟨"rfc2459.rsaEncryption", Verif.Rfc2459.rsaEncryption, OBJECT_IDENTIFIER, .oid [1, 2, 840, 113549, 1, 1, 1], true⟩,
   ⟨"rfc2459.md2WithRSAEncryption", Verif.Rfc2459.md2WithRSAEncryption, OBJECT_IDENTIFIER, .oid [1, 2, 840, 113549, 1, 1, 2], true⟩,
   ⟨"rfc2459.md5WithRSAEncryption", Verif.Rfc2459.md5WithRSAEncryption, OBJECT_IDENTIFIER, .oid [1, 2, 840, 113549, 1, 1, 4], true⟩,
   ⟨"rfc2459.sha1WithRSAEncryption", Verif.Rfc2459.sha1WithRSAEncryption, OBJECT_IDENTIFIER, .oid [1, 2, 840, 113549, 1, 1, 5], true⟩,
   ⟨"rfc2459.id_dsa_with_sha1", Verif.Rfc2459.id_dsa_with_sha1, OBJECT_IDENTIFIER, .oid [1, 2, 840, 10040, 4, 3], true⟩,
   ⟨"rfc2459.dhpublicnumber", Verif.Rfc2459.dhpublicnumber, OBJECT_IDENTIFIER, .oid [1, 2, 840, 10046, 2, 1], true⟩,
   ⟨"rfc2459.id_dsa", Verif.Rfc2459.id_dsa, OBJECT_IDENTIFIER, .oid [1, 2, 840, 10040, 4, 1], true⟩,
   ⟨"rfc2459.teletex_domain_defined_attributes", Verif.Rfc2459.teletex_domain_defined_attributes, INTEGER, .int 6, true⟩,
   ⟨"rfc2459.terminal_type", Verif.Rfc2459.terminal_type, INTEGER, .int 23, true⟩,
   ⟨"rfc2459.extended_network_address", Verif.Rfc2459.extended_network_address, INTEGER, .int 22, true⟩,
   ⟨"rfc2459.local_postal_attributes", Verif.Rfc2459.local_postal_attributes, INTEGER, .int 21, true⟩,
   ⟨"rfc2459.unique_postal_name", Verif.Rfc2459.unique_postal_name, INTEGER, .int 20, true⟩,
   ⟨"rfc2459.poste_restante_address", Verif.Rfc2459.poste_restante_address, INTEGER, .int 19, true⟩,
   ⟨"rfc2459.post_office_box_address", Verif.Rfc2459.post_office_box_address, INTEGER, .int 18, true⟩,
   ⟨"rfc2459.street_address", Verif.Rfc2459.street_address, INTEGER, .int 17, true⟩,
   ⟨"rfc2459.physical_delivery_office_name", Verif.Rfc2459.physical_delivery_office_name, INTEGER, .int 10, true⟩,
   ⟨"rfc2459.physical_delivery_office_number", Verif.Rfc2459.physical_delivery_office_number, INTEGER, .int 11, true⟩,
   ⟨"rfc2459.extension_OR_address_components", Verif.Rfc2459.extension_OR_address_components, INTEGER, .int 12, true⟩,
   ⟨"rfc2459.physical_delivery_personal_name", Verif.Rfc2459.physical_delivery_personal_name, INTEGER, .int 13, true⟩,
   ⟨"rfc2459.physical_delivery_organization_name", Verif.Rfc2459.physical_delivery_organization_name, INTEGER, .int 14, true⟩,
   ⟨"rfc2459.extension_physical_delivery_address_components", Verif.Rfc2459.extension_physical_delivery_address_components, INTEGER, .int 15, true⟩,
   ⟨"rfc2459.unformatted_postal_address", Verif.Rfc2459.unformatted_postal_address, INTEGER, .int 16, true⟩,
   ⟨"rfc2459.postal_code", Verif.Rfc2459.postal_code, INTEGER, .int 9, true⟩,
   ⟨"rfc2459.physical_delivery_country_name", Verif.Rfc2459.physical_delivery_country_name, INTEGER, .int 8, true⟩,
   ⟨"rfc2459.pds_name", Verif.Rfc2459.pds_name, INTEGER, .int 7, true⟩,
   ⟨"rfc2459.teletex_organizational_unit_names", Verif.Rfc2459.teletex_organizational_unit_names, INTEGER, .int 5, true⟩,
   ⟨"rfc2459.teletex_personal_name", Verif.Rfc2459.teletex_personal_name, INTEGER, .int 4, true⟩,
   ⟨"rfc2459.teletex_organization_name", Verif.Rfc2459.teletex_organization_name, INTEGER, .int 3, true⟩,
   ⟨"rfc2459.teletex_common_name", Verif.Rfc2459.teletex_common_name, INTEGER, .int 2, true⟩,
   ⟨"rfc2459.common_name", Verif.Rfc2459.common_name, INTEGER, .int 1, true⟩,
   ⟨"rfc2459.id_ce_invalidityDate", Verif.Rfc2459.id_ce_invalidityDate, OBJECT_IDENTIFIER, .oid [2, 5, 29, 24], true⟩,
   ⟨"rfc2459.id_holdinstruction_none", Verif.Rfc2459.id_holdinstruction_none, OBJECT_IDENTIFIER, .oid [2, 2, 840, 10040, 2, 1], true⟩,
   ⟨"rfc2459.id_holdinstruction_callissuer", Verif.Rfc2459.id_holdinstruction_callissuer, OBJECT_IDENTIFIER, .oid [2, 2, 840, 10040, 2, 2], true⟩,
   ⟨"rfc2459.id_holdinstruction_reject", Verif.Rfc2459.id_holdinstruction_reject, OBJECT_IDENTIFIER, .oid [2, 2, 840, 10040, 2, 3], true⟩,
   ⟨"rfc2459.holdInstruction", Verif.Rfc2459.holdInstruction, OBJECT_IDENTIFIER, .oid [2, 2, 840, 10040, 2], true⟩,
   ⟨"rfc2459.id_ce_holdInstructionCode", Verif.Rfc2459.id_ce_holdInstructionCode, OBJECT_IDENTIFIER, .oid [2, 5, 29, 23], true⟩,
   ⟨"rfc2459.id_ce_cRLReasons", Verif.Rfc2459.id_ce_cRLReasons, OBJECT_IDENTIFIER, .oid [2, 5, 29, 21], true⟩,
   ⟨"rfc2459.id_ce_cRLNumber", Verif.Rfc2459.id_ce_cRLNumber, OBJECT_IDENTIFIER, .oid [2, 5, 29, 20], true⟩,
   ⟨"rfc2459.id_kp_serverAuth", Verif.Rfc2459.id_kp_serverAuth, OBJECT_IDENTIFIER, .oid [1, 3, 6, 1, 5, 5, 7, 3, 1], true⟩,
   ⟨"rfc2459.id_kp_clientAuth", Verif.Rfc2459.id_kp_clientAuth, OBJECT_IDENTIFIER, .oid [1, 3, 6, 1, 5, 5, 7, 3, 2], true⟩,
   ⟨"rfc2459.id_kp_codeSigning", Verif.Rfc2459.id_kp_codeSigning, OBJECT_IDENTIFIER, .oid [1, 3, 6, 1, 5, 5, 7, 3, 3], true⟩,
   ⟨"rfc2459.id_kp_emailProtection", Verif.Rfc2459.id_kp_emailProtection, OBJECT_IDENTIFIER, .oid [1, 3, 6, 1, 5, 5, 7, 3, 4], true⟩,
   ⟨"rfc2459.id_kp_ipsecEndSystem", Verif.Rfc2459.id_kp_ipsecEndSystem, OBJECT_IDENTIFIER, .oid [1, 3, 6, 1, 5, 5, 7, 3, 5], true⟩,
   ⟨"rfc2459.id_kp_ipsecTunnel", Verif.Rfc2459.id_kp_ipsecTunnel, OBJECT_IDENTIFIER, .oid [1, 3, 6, 1, 5, 5, 7, 3, 6], true⟩,
   ⟨"rfc2459.id_kp_ipsecUser", Verif.Rfc2459.id_kp_ipsecUser, OBJECT_IDENTIFIER, .oid [1, 3, 6, 1, 5, 5, 7, 3, 7], true⟩,
   ⟨"rfc2459.id_kp_timeStamping", Verif.Rfc2459.id_kp_timeStamping, OBJECT_IDENTIFIER, .oid [1, 3, 6, 1, 5, 5, 7, 3, 8], true⟩,
   ⟨"rfc2459.id_pe_authorityInfoAccess", Verif.Rfc2459.id_pe_authorityInfoAccess, OBJECT_IDENTIFIER, .oid [1, 3, 6, 1, 5, 5, 7, 1, 1], true⟩,
   ⟨"rfc2459.id_ce_extKeyUsage", Verif.Rfc2459.id_ce_extKeyUsage, OBJECT_IDENTIFIER, .oid [2, 5, 29, 37], true⟩,
   ⟨"rfc2459.id_ce_policyConstraints", Verif.Rfc2459.id_ce_policyConstraints, OBJECT_IDENTIFIER, .oid [2, 5, 29, 36], true⟩,
   ⟨"rfc2459.id_ce_basicConstraints", Verif.Rfc2459.id_ce_basicConstraints, OBJECT_IDENTIFIER, .oid [2, 5, 29, 19], true⟩,
   ⟨"rfc2459.id_ce_subjectDirectoryAttributes", Verif.Rfc2459.id_ce_subjectDirectoryAttributes, OBJECT_IDENTIFIER, .oid [2, 5, 29, 9], true⟩,
   ⟨"rfc2459.id_ce_deltaCRLIndicator", Verif.Rfc2459.id_ce_deltaCRLIndicator, OBJECT_IDENTIFIER, .oid [2, 5, 29, 27], true⟩,
   ⟨"rfc2459.id_ce_cRLDistributionPoints", Verif.Rfc2459.id_ce_cRLDistributionPoints, OBJECT_IDENTIFIER, .oid [2, 5, 29, 31], true⟩,
   ⟨"rfc2459.id_ce_issuingDistributionPoint", Verif.Rfc2459.id_ce_issuingDistributionPoint, OBJECT_IDENTIFIER, .oid [2, 5, 29, 28], true⟩,
   ⟨"rfc2459.id_ce_nameConstraints", Verif.Rfc2459.id_ce_nameConstraints, OBJECT_IDENTIFIER, .oid [2, 5, 29, 30], true⟩,
   ⟨"rfc2459.id_ce_certificatePolicies", Verif.Rfc2459.id_ce_certificatePolicies, OBJECT_IDENTIFIER, .oid [2, 5, 29, 32], true⟩,
   ⟨"rfc2459.id_ce_policyMappings", Verif.Rfc2459.id_ce_policyMappings, OBJECT_IDENTIFIER, .oid [2, 5, 29, 33], true⟩,
   ⟨"rfc2459.id_ce_privateKeyUsagePeriod", Verif.Rfc2459.id_ce_privateKeyUsagePeriod, OBJECT_IDENTIFIER, .oid [2, 5, 29, 16], true⟩,
   ⟨"rfc2459.id_ce_keyUsage", Verif.Rfc2459.id_ce_keyUsage, OBJECT_IDENTIFIER, .oid [2, 5, 29, 15], true⟩,
   ⟨"rfc2459.id_ce", Verif.Rfc2459.id_ce, OBJECT_IDENTIFIER, .oid [2, 5, 29], true⟩,
   ⟨"rfc2459.id_ce_authorityKeyIdentifier", Verif.Rfc2459.id_ce_authorityKeyIdentifier, OBJECT_IDENTIFIER, .oid [2, 5, 29, 35], true⟩,
   ⟨"rfc2459.id_ce_subjectKeyIdentifier", Verif.Rfc2459.id_ce_subjectKeyIdentifier, OBJECT_IDENTIFIER, .oid [2, 5, 29, 14], true⟩,
   ⟨"rfc2459.id_ce_certificateIssuer", Verif.Rfc2459.id_ce_certificateIssuer, OBJECT_IDENTIFIER, .oid [2, 5, 29, 29], true⟩,
   ⟨"rfc2459.id_ce_subjectAltName", Verif.Rfc2459.id_ce_subjectAltName, OBJECT_IDENTIFIER, .oid [2, 5, 29, 17], true⟩,
   ⟨"rfc2459.id_ce_issuerAltName", Verif.Rfc2459.id_ce_issuerAltName, OBJECT_IDENTIFIER, .oid [2, 5, 29, 18], true⟩]

/-- Constants of rfc2459.py the transcription of the standard has no value for. -/
def others : List String :=
  ["rfc2459.id_at_sutname"]

def standard : Standard := ⟨Verif.Rfc2459.asModule, entries, beyond, constants, others⟩

end Rfc2459
end Std
end Verif
