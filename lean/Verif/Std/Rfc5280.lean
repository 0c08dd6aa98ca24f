import Verif.Spec.Grade
import Verif.Gen.Rfc5280

/-! The ASN.1 of tools/std/rfc5280.asn1 (generated by tools/stdgen.py). -/

namespace Verif
namespace Std
namespace Rfc5280

open Asn1 Spec.X680

/-- `AttributeType ::=` -/
def AttributeType : Ty :=
  OBJECT_IDENTIFIER

/-- `AttributeValue ::=` -/
def AttributeValue : Ty :=
  ANY

/-- `Attribute ::=` -/
def Attribute : Ty :=
  SEQUENCE [
    mandatory "type" AttributeType,
    mandatory "values" (SET_OF AttributeValue)]

/-- `AttributeTypeAndValue ::=` -/
def AttributeTypeAndValue : Ty :=
  SEQUENCE [
    mandatory "type" AttributeType,
    mandatory "value" AttributeValue]

/-- `X520name ::=` -/
def X520name : Ty :=
  CHOICE [
    mandatory "teletexString" (constrained (SIZE 1 32768) TeletexString),
    mandatory "printableString" (constrained (SIZE 1 32768) PrintableString),
    mandatory "universalString" (constrained (SIZE 1 32768) UniversalString),
    mandatory "utf8String" (constrained (SIZE 1 32768) UTF8String),
    mandatory "bmpString" (constrained (SIZE 1 32768) BMPString)]

/-- `X520CommonName ::=` -/
def X520CommonName : Ty :=
  CHOICE [
    mandatory "teletexString" (constrained (SIZE 1 64) TeletexString),
    mandatory "printableString" (constrained (SIZE 1 64) PrintableString),
    mandatory "universalString" (constrained (SIZE 1 64) UniversalString),
    mandatory "utf8String" (constrained (SIZE 1 64) UTF8String),
    mandatory "bmpString" (constrained (SIZE 1 64) BMPString)]

/-- `X520LocalityName ::=` -/
def X520LocalityName : Ty :=
  CHOICE [
    mandatory "teletexString" (constrained (SIZE 1 128) TeletexString),
    mandatory "printableString" (constrained (SIZE 1 128) PrintableString),
    mandatory "universalString" (constrained (SIZE 1 128) UniversalString),
    mandatory "utf8String" (constrained (SIZE 1 128) UTF8String),
    mandatory "bmpString" (constrained (SIZE 1 128) BMPString)]

/-- `X520StateOrProvinceName ::=` -/
def X520StateOrProvinceName : Ty :=
  CHOICE [
    mandatory "teletexString" (constrained (SIZE 1 128) TeletexString),
    mandatory "printableString" (constrained (SIZE 1 128) PrintableString),
    mandatory "universalString" (constrained (SIZE 1 128) UniversalString),
    mandatory "utf8String" (constrained (SIZE 1 128) UTF8String),
    mandatory "bmpString" (constrained (SIZE 1 128) BMPString)]

/-- `X520OrganizationName ::=` -/
def X520OrganizationName : Ty :=
  CHOICE [
    mandatory "teletexString" (constrained (SIZE 1 64) TeletexString),
    mandatory "printableString" (constrained (SIZE 1 64) PrintableString),
    mandatory "universalString" (constrained (SIZE 1 64) UniversalString),
    mandatory "utf8String" (constrained (SIZE 1 64) UTF8String),
    mandatory "bmpString" (constrained (SIZE 1 64) BMPString)]

/-- `X520OrganizationalUnitName ::=` -/
def X520OrganizationalUnitName : Ty :=
  CHOICE [
    mandatory "teletexString" (constrained (SIZE 1 64) TeletexString),
    mandatory "printableString" (constrained (SIZE 1 64) PrintableString),
    mandatory "universalString" (constrained (SIZE 1 64) UniversalString),
    mandatory "utf8String" (constrained (SIZE 1 64) UTF8String),
    mandatory "bmpString" (constrained (SIZE 1 64) BMPString)]

/-- `X520Title ::=` -/
def X520Title : Ty :=
  CHOICE [
    mandatory "teletexString" (constrained (SIZE 1 64) TeletexString),
    mandatory "printableString" (constrained (SIZE 1 64) PrintableString),
    mandatory "universalString" (constrained (SIZE 1 64) UniversalString),
    mandatory "utf8String" (constrained (SIZE 1 64) UTF8String),
    mandatory "bmpString" (constrained (SIZE 1 64) BMPString)]

/-- `X520dnQualifier ::=` -/
def X520dnQualifier : Ty :=
  PrintableString

/-- `X520countryName ::=` -/
def X520countryName : Ty :=
  constrained (SIZE 2 2) PrintableString

/-- `X520SerialNumber ::=` -/
def X520SerialNumber : Ty :=
  constrained (SIZE 1 64) PrintableString

/-- `X520Pseudonym ::=` -/
def X520Pseudonym : Ty :=
  CHOICE [
    mandatory "teletexString" (constrained (SIZE 1 128) TeletexString),
    mandatory "printableString" (constrained (SIZE 1 128) PrintableString),
    mandatory "universalString" (constrained (SIZE 1 128) UniversalString),
    mandatory "utf8String" (constrained (SIZE 1 128) UTF8String),
    mandatory "bmpString" (constrained (SIZE 1 128) BMPString)]

/-- `DomainComponent ::=` -/
def DomainComponent : Ty :=
  IA5String

/-- `EmailAddress ::=` -/
def EmailAddress : Ty :=
  constrained (SIZE 1 255) IA5String

/-- `RelativeDistinguishedName ::=` -/
def RelativeDistinguishedName : Ty :=
  constrained (SIZE_MAX 1) (SET_OF AttributeTypeAndValue)

/-- `RDNSequence ::=` -/
def RDNSequence : Ty :=
  SEQUENCE_OF RelativeDistinguishedName

/-- `Name ::=` -/
def Name : Ty :=
  CHOICE [
    mandatory "rdnSequence" RDNSequence]

/-- `DistinguishedName ::=` -/
def DistinguishedName : Ty :=
  RDNSequence

/-- `DirectoryString ::=` -/
def DirectoryString : Ty :=
  CHOICE [
    mandatory "teletexString" (constrained (SIZE_MAX 1) TeletexString),
    mandatory "printableString" (constrained (SIZE_MAX 1) PrintableString),
    mandatory "universalString" (constrained (SIZE_MAX 1) UniversalString),
    mandatory "utf8String" (constrained (SIZE_MAX 1) UTF8String),
    mandatory "bmpString" (constrained (SIZE_MAX 1) BMPString)]

/-- `Version ::=` -/
def Version : Ty :=
  named [("v1", 0), ("v2", 1), ("v3", 2)] INTEGER

/-- `CertificateSerialNumber ::=` -/
def CertificateSerialNumber : Ty :=
  INTEGER

/-- `AlgorithmIdentifier ::=` -/
def AlgorithmIdentifier : Ty :=
  SEQUENCE [
    mandatory "algorithm" OBJECT_IDENTIFIER,
    optional "parameters" ANY]

/-- `Time ::=` -/
def Time : Ty :=
  CHOICE [
    mandatory "utcTime" UTCTime,
    mandatory "generalTime" GeneralizedTime]

/-- `Validity ::=` -/
def Validity : Ty :=
  SEQUENCE [
    mandatory "notBefore" Time,
    mandatory "notAfter" Time]

/-- `SubjectPublicKeyInfo ::=` -/
def SubjectPublicKeyInfo : Ty :=
  SEQUENCE [
    mandatory "algorithm" AlgorithmIdentifier,
    mandatory "subjectPublicKey" BIT_STRING]

/-- `UniqueIdentifier ::=` -/
def UniqueIdentifier : Ty :=
  BIT_STRING

/-- `Extension ::=` -/
def Extension : Ty :=
  SEQUENCE [
    mandatory "extnID" OBJECT_IDENTIFIER,
    default "critical" BOOLEAN (.int 0),
    mandatory "extnValue" OCTET_STRING]

/-- `Extensions ::=` -/
def Extensions : Ty :=
  constrained (SIZE_MAX 1) (SEQUENCE_OF Extension)

/-- `TBSCertificate ::=` -/
def TBSCertificate : Ty :=
  SEQUENCE [
    default "version" (explicit .context 0 Version) (.int 0),
    mandatory "serialNumber" CertificateSerialNumber,
    mandatory "signature" AlgorithmIdentifier,
    mandatory "issuer" Name,
    mandatory "validity" Validity,
    mandatory "subject" Name,
    mandatory "subjectPublicKeyInfo" SubjectPublicKeyInfo,
    optional "issuerUniqueID" (implicit .context 1 UniqueIdentifier),
    optional "subjectUniqueID" (implicit .context 2 UniqueIdentifier),
    optional "extensions" (explicit .context 3 Extensions)]

/-- `Certificate ::=` -/
def Certificate : Ty :=
  SEQUENCE [
    mandatory "tbsCertificate" TBSCertificate,
    mandatory "signatureAlgorithm" AlgorithmIdentifier,
    mandatory "signature" BIT_STRING]

/-- `TBSCertList ::=` -/
def TBSCertList : Ty :=
  SEQUENCE [
    optional "version" Version,
    mandatory "signature" AlgorithmIdentifier,
    mandatory "issuer" Name,
    mandatory "thisUpdate" Time,
    optional "nextUpdate" Time,
    optional "revokedCertificates" (SEQUENCE_OF (SEQUENCE [
      mandatory "userCertificate" CertificateSerialNumber,
      mandatory "revocationDate" Time,
      optional "crlEntryExtensions" Extensions])),
    optional "crlExtensions" (explicit .context 0 Extensions)]

/-- `CertificateList ::=` -/
def CertificateList : Ty :=
  SEQUENCE [
    mandatory "tbsCertList" TBSCertList,
    mandatory "signatureAlgorithm" AlgorithmIdentifier,
    mandatory "signature" BIT_STRING]

/-- `CountryName ::=` -/
def CountryName : Ty :=
  explicit .application 1 (CHOICE [
    mandatory "x121-dcc-code" (constrained (SIZE 3 3) NumericString),
    mandatory "iso-3166-alpha2-code" (constrained (SIZE 2 2) PrintableString)])

/-- `AdministrationDomainName ::=` -/
def AdministrationDomainName : Ty :=
  explicit .application 2 (CHOICE [
    mandatory "numeric" (constrained (SIZE 0 16) NumericString),
    mandatory "printable" (constrained (SIZE 0 16) PrintableString)])

/-- `X121Address ::=` -/
def X121Address : Ty :=
  constrained (SIZE 1 16) NumericString

/-- `NetworkAddress ::=` -/
def NetworkAddress : Ty :=
  X121Address

/-- `TerminalIdentifier ::=` -/
def TerminalIdentifier : Ty :=
  constrained (SIZE 1 24) PrintableString

/-- `PrivateDomainName ::=` -/
def PrivateDomainName : Ty :=
  CHOICE [
    mandatory "numeric" (constrained (SIZE 1 16) NumericString),
    mandatory "printable" (constrained (SIZE 1 16) PrintableString)]

/-- `OrganizationName ::=` -/
def OrganizationName : Ty :=
  constrained (SIZE 1 64) PrintableString

/-- `NumericUserIdentifier ::=` -/
def NumericUserIdentifier : Ty :=
  constrained (SIZE 1 32) NumericString

/-- `PersonalName ::=` -/
def PersonalName : Ty :=
  SET [
    mandatory "surname" (implicit .context 0 (constrained (SIZE 1 40) PrintableString)),
    optional "given-name" (implicit .context 1 (constrained (SIZE 1 16) PrintableString)),
    optional "initials" (implicit .context 2 (constrained (SIZE 1 5) PrintableString)),
    optional "generation-qualifier" (implicit .context 3 (constrained (SIZE 1 3) PrintableString))]

/-- `OrganizationalUnitName ::=` -/
def OrganizationalUnitName : Ty :=
  constrained (SIZE 1 32) PrintableString

/-- `OrganizationalUnitNames ::=` -/
def OrganizationalUnitNames : Ty :=
  constrained (SIZE 1 4) (SEQUENCE_OF OrganizationalUnitName)

/-- `BuiltInStandardAttributes ::=` -/
def BuiltInStandardAttributes : Ty :=
  SEQUENCE [
    optional "country-name" CountryName,
    optional "administration-domain-name" AdministrationDomainName,
    optional "network-address" (implicit .context 0 NetworkAddress),
    optional "terminal-identifier" (implicit .context 1 TerminalIdentifier),
    optional "private-domain-name" (explicit .context 2 PrivateDomainName),
    optional "organization-name" (implicit .context 3 OrganizationName),
    optional "numeric-user-identifier" (implicit .context 4 NumericUserIdentifier),
    optional "personal-name" (implicit .context 5 PersonalName),
    optional "organizational-unit-names" (implicit .context 6 OrganizationalUnitNames)]

/-- `BuiltInDomainDefinedAttribute ::=` -/
def BuiltInDomainDefinedAttribute : Ty :=
  SEQUENCE [
    mandatory "type" (constrained (SIZE 1 8) PrintableString),
    mandatory "value" (constrained (SIZE 1 128) PrintableString)]

/-- `BuiltInDomainDefinedAttributes ::=` -/
def BuiltInDomainDefinedAttributes : Ty :=
  constrained (SIZE 1 4) (SEQUENCE_OF BuiltInDomainDefinedAttribute)

/-- `ExtensionAttribute ::=` -/
def ExtensionAttribute : Ty :=
  SEQUENCE [
    mandatory "extension-attribute-type" (implicit .context 0 (constrained (RANGE 0 256) INTEGER)),
    mandatory "extension-attribute-value" (explicit .context 1 ANY)]

/-- `ExtensionAttributes ::=` -/
def ExtensionAttributes : Ty :=
  constrained (SIZE 1 256) (SET_OF ExtensionAttribute)

/-- `ORAddress ::=` -/
def ORAddress : Ty :=
  SEQUENCE [
    mandatory "built-in-standard-attributes" BuiltInStandardAttributes,
    optional "built-in-domain-defined-attributes" BuiltInDomainDefinedAttributes,
    optional "extension-attributes" ExtensionAttributes]

/-- `CommonName ::=` -/
def CommonName : Ty :=
  constrained (SIZE 1 64) PrintableString

/-- `TeletexCommonName ::=` -/
def TeletexCommonName : Ty :=
  constrained (SIZE 1 64) TeletexString

/-- `TeletexOrganizationName ::=` -/
def TeletexOrganizationName : Ty :=
  constrained (SIZE 1 64) TeletexString

/-- `TeletexPersonalName ::=` -/
def TeletexPersonalName : Ty :=
  SET [
    mandatory "surname" (implicit .context 0 (constrained (SIZE 1 40) TeletexString)),
    optional "given-name" (implicit .context 1 (constrained (SIZE 1 16) TeletexString)),
    optional "initials" (implicit .context 2 (constrained (SIZE 1 5) TeletexString)),
    optional "generation-qualifier" (implicit .context 3 (constrained (SIZE 1 3) TeletexString))]

/-- `TeletexOrganizationalUnitName ::=` -/
def TeletexOrganizationalUnitName : Ty :=
  constrained (SIZE 1 32) TeletexString

/-- `TeletexOrganizationalUnitNames ::=` -/
def TeletexOrganizationalUnitNames : Ty :=
  constrained (SIZE 1 4) (SEQUENCE_OF TeletexOrganizationalUnitName)

/-- `PDSName ::=` -/
def PDSName : Ty :=
  constrained (SIZE 1 16) PrintableString

/-- `PhysicalDeliveryCountryName ::=` -/
def PhysicalDeliveryCountryName : Ty :=
  CHOICE [
    mandatory "x121-dcc-code" (constrained (SIZE 3 3) NumericString),
    mandatory "iso-3166-alpha2-code" (constrained (SIZE 2 2) PrintableString)]

/-- `PostalCode ::=` -/
def PostalCode : Ty :=
  CHOICE [
    mandatory "numeric-code" (constrained (SIZE 1 16) NumericString),
    mandatory "printable-code" (constrained (SIZE 1 16) PrintableString)]

/-- `PDSParameter ::=` -/
def PDSParameter : Ty :=
  SET [
    optional "printable-string" (constrained (SIZE 1 30) PrintableString),
    optional "teletex-string" (constrained (SIZE 1 30) TeletexString)]

/-- `PhysicalDeliveryOfficeName ::=` -/
def PhysicalDeliveryOfficeName : Ty :=
  PDSParameter

/-- `PhysicalDeliveryOfficeNumber ::=` -/
def PhysicalDeliveryOfficeNumber : Ty :=
  PDSParameter

/-- `ExtensionORAddressComponents ::=` -/
def ExtensionORAddressComponents : Ty :=
  PDSParameter

/-- `PhysicalDeliveryPersonalName ::=` -/
def PhysicalDeliveryPersonalName : Ty :=
  PDSParameter

/-- `PhysicalDeliveryOrganizationName ::=` -/
def PhysicalDeliveryOrganizationName : Ty :=
  PDSParameter

/-- `ExtensionPhysicalDeliveryAddressComponents ::=` -/
def ExtensionPhysicalDeliveryAddressComponents : Ty :=
  PDSParameter

/-- `UnformattedPostalAddress ::=` -/
def UnformattedPostalAddress : Ty :=
  SET [
    optional "printable-address" (constrained (SIZE 1 6) (SEQUENCE_OF (constrained (SIZE 1 30) PrintableString))),
    optional "teletex-string" (constrained (SIZE 1 180) TeletexString)]

/-- `StreetAddress ::=` -/
def StreetAddress : Ty :=
  PDSParameter

/-- `PostOfficeBoxAddress ::=` -/
def PostOfficeBoxAddress : Ty :=
  PDSParameter

/-- `PosteRestanteAddress ::=` -/
def PosteRestanteAddress : Ty :=
  PDSParameter

/-- `UniquePostalName ::=` -/
def UniquePostalName : Ty :=
  PDSParameter

/-- `LocalPostalAttributes ::=` -/
def LocalPostalAttributes : Ty :=
  PDSParameter

/-- `PresentationAddress ::=` -/
def PresentationAddress : Ty :=
  SEQUENCE [
    optional "pSelector" (explicit .context 0 OCTET_STRING),
    optional "sSelector" (explicit .context 1 OCTET_STRING),
    optional "tSelector" (explicit .context 2 OCTET_STRING),
    mandatory "nAddresses" (explicit .context 3 (constrained (SIZE_MAX 1) (SET_OF OCTET_STRING)))]

/-- `ExtendedNetworkAddress ::=` -/
def ExtendedNetworkAddress : Ty :=
  CHOICE [
    mandatory "e163-4-address" (SEQUENCE [
      mandatory "number" (implicit .context 0 (constrained (SIZE 1 15) NumericString)),
      optional "sub-address" (implicit .context 1 (constrained (SIZE 1 40) NumericString))]),
    mandatory "psap-address" (implicit .context 0 PresentationAddress)]

/-- `TerminalType ::=` -/
def TerminalType : Ty :=
  constrained (RANGE 0 256) (named [("telex", 3), ("teletex", 4), ("g3-facsimile", 5), ("g4-facsimile", 6), ("ia5-terminal", 7), ("videotex", 8)] INTEGER)

/-- `TeletexDomainDefinedAttribute ::=` -/
def TeletexDomainDefinedAttribute : Ty :=
  SEQUENCE [
    mandatory "type" (constrained (SIZE 1 8) TeletexString),
    mandatory "value" (constrained (SIZE 1 128) TeletexString)]

/-- `TeletexDomainDefinedAttributes ::=` -/
def TeletexDomainDefinedAttributes : Ty :=
  constrained (SIZE 1 4) (SEQUENCE_OF TeletexDomainDefinedAttribute)

/-- `KeyIdentifier ::=` -/
def KeyIdentifier : Ty :=
  OCTET_STRING

/-- `AnotherName ::=` -/
def AnotherName : Ty :=
  SEQUENCE [
    mandatory "type-id" OBJECT_IDENTIFIER,
    mandatory "value" (explicit .context 0 ANY)]

/-- `EDIPartyName ::=` -/
def EDIPartyName : Ty :=
  SEQUENCE [
    optional "nameAssigner" (implicit .context 0 DirectoryString),
    mandatory "partyName" (implicit .context 1 DirectoryString)]

/-- `GeneralName ::=` -/
def GeneralName : Ty :=
  CHOICE [
    mandatory "otherName" (implicit .context 0 AnotherName),
    mandatory "rfc822Name" (implicit .context 1 IA5String),
    mandatory "dNSName" (implicit .context 2 IA5String),
    mandatory "x400Address" (implicit .context 3 ORAddress),
    mandatory "directoryName" (implicit .context 4 Name),
    mandatory "ediPartyName" (implicit .context 5 EDIPartyName),
    mandatory "uniformResourceIdentifier" (implicit .context 6 IA5String),
    mandatory "iPAddress" (implicit .context 7 OCTET_STRING),
    mandatory "registeredID" (implicit .context 8 OBJECT_IDENTIFIER)]

/-- `GeneralNames ::=` -/
def GeneralNames : Ty :=
  constrained (SIZE_MAX 1) (SEQUENCE_OF GeneralName)

/-- `AuthorityKeyIdentifier ::=` -/
def AuthorityKeyIdentifier : Ty :=
  SEQUENCE [
    optional "keyIdentifier" (implicit .context 0 KeyIdentifier),
    optional "authorityCertIssuer" (implicit .context 1 GeneralNames),
    optional "authorityCertSerialNumber" (implicit .context 2 CertificateSerialNumber)]

/-- `SubjectKeyIdentifier ::=` -/
def SubjectKeyIdentifier : Ty :=
  KeyIdentifier

/-- `KeyUsage ::=` -/
def KeyUsage : Ty :=
  named [("digitalSignature", 0), ("nonRepudiation", 1), ("keyEncipherment", 2), ("dataEncipherment", 3), ("keyAgreement", 4), ("keyCertSign", 5), ("cRLSign", 6), ("encipherOnly", 7), ("decipherOnly", 8)] BIT_STRING

/-- `PrivateKeyUsagePeriod ::=` -/
def PrivateKeyUsagePeriod : Ty :=
  SEQUENCE [
    optional "notBefore" (implicit .context 0 GeneralizedTime),
    optional "notAfter" (implicit .context 1 GeneralizedTime)]

/-- `CertPolicyId ::=` -/
def CertPolicyId : Ty :=
  OBJECT_IDENTIFIER

/-- `PolicyQualifierId ::=` -/
def PolicyQualifierId : Ty :=
  constrained (VALUES [.oid [1, 3, 6, 1, 5, 5, 7, 2, 1], .oid [1, 3, 6, 1, 5, 5, 7, 2, 2]]) OBJECT_IDENTIFIER

/-- `PolicyQualifierInfo ::=` -/
def PolicyQualifierInfo : Ty :=
  SEQUENCE [
    mandatory "policyQualifierId" PolicyQualifierId,
    mandatory "qualifier" ANY]

/-- `PolicyInformation ::=` -/
def PolicyInformation : Ty :=
  SEQUENCE [
    mandatory "policyIdentifier" CertPolicyId,
    optional "policyQualifiers" (constrained (SIZE_MAX 1) (SEQUENCE_OF PolicyQualifierInfo))]

/-- `CertificatePolicies ::=` -/
def CertificatePolicies : Ty :=
  constrained (SIZE_MAX 1) (SEQUENCE_OF PolicyInformation)

/-- `CPSuri ::=` -/
def CPSuri : Ty :=
  IA5String

/-- `DisplayText ::=` -/
def DisplayText : Ty :=
  CHOICE [
    mandatory "ia5String" (constrained (SIZE 1 200) IA5String),
    mandatory "visibleString" (constrained (SIZE 1 200) VisibleString),
    mandatory "bmpString" (constrained (SIZE 1 200) BMPString),
    mandatory "utf8String" (constrained (SIZE 1 200) UTF8String)]

/-- `NoticeReference ::=` -/
def NoticeReference : Ty :=
  SEQUENCE [
    mandatory "organization" DisplayText,
    mandatory "noticeNumbers" (SEQUENCE_OF INTEGER)]

/-- `UserNotice ::=` -/
def UserNotice : Ty :=
  SEQUENCE [
    optional "noticeRef" NoticeReference,
    optional "explicitText" DisplayText]

/-- `PolicyMappings ::=` -/
def PolicyMappings : Ty :=
  constrained (SIZE_MAX 1) (SEQUENCE_OF (SEQUENCE [
    mandatory "issuerDomainPolicy" CertPolicyId,
    mandatory "subjectDomainPolicy" CertPolicyId]))

/-- `SubjectAltName ::=` -/
def SubjectAltName : Ty :=
  GeneralNames

/-- `IssuerAltName ::=` -/
def IssuerAltName : Ty :=
  GeneralNames

/-- `SubjectDirectoryAttributes ::=` -/
def SubjectDirectoryAttributes : Ty :=
  constrained (SIZE_MAX 1) (SEQUENCE_OF Attribute)

/-- `BasicConstraints ::=` -/
def BasicConstraints : Ty :=
  SEQUENCE [
    default "cA" BOOLEAN (.int 0),
    optional "pathLenConstraint" (constrained (RANGE_MAX 0) INTEGER)]

/-- `BaseDistance ::=` -/
def BaseDistance : Ty :=
  constrained (RANGE_MAX 0) INTEGER

/-- `GeneralSubtree ::=` -/
def GeneralSubtree : Ty :=
  SEQUENCE [
    mandatory "base" GeneralName,
    default "minimum" (implicit .context 0 BaseDistance) (.int 0),
    optional "maximum" (implicit .context 1 BaseDistance)]

/-- `GeneralSubtrees ::=` -/
def GeneralSubtrees : Ty :=
  constrained (SIZE_MAX 1) (SEQUENCE_OF GeneralSubtree)

/-- `NameConstraints ::=` -/
def NameConstraints : Ty :=
  SEQUENCE [
    optional "permittedSubtrees" (implicit .context 0 GeneralSubtrees),
    optional "excludedSubtrees" (implicit .context 1 GeneralSubtrees)]

/-- `SkipCerts ::=` -/
def SkipCerts : Ty :=
  constrained (RANGE_MAX 0) INTEGER

/-- `PolicyConstraints ::=` -/
def PolicyConstraints : Ty :=
  SEQUENCE [
    optional "requireExplicitPolicy" (implicit .context 0 SkipCerts),
    optional "inhibitPolicyMapping" (implicit .context 1 SkipCerts)]

/-- `DistributionPointName ::=` -/
def DistributionPointName : Ty :=
  CHOICE [
    mandatory "fullName" (implicit .context 0 GeneralNames),
    mandatory "nameRelativeToCRLIssuer" (implicit .context 1 RelativeDistinguishedName)]

/-- `ReasonFlags ::=` -/
def ReasonFlags : Ty :=
  named [("unused", 0), ("keyCompromise", 1), ("cACompromise", 2), ("affiliationChanged", 3), ("superseded", 4), ("cessationOfOperation", 5), ("certificateHold", 6), ("privilegeWithdrawn", 7), ("aACompromise", 8)] BIT_STRING

/-- `DistributionPoint ::=` -/
def DistributionPoint : Ty :=
  SEQUENCE [
    optional "distributionPoint" (implicit .context 0 DistributionPointName),
    optional "reasons" (implicit .context 1 ReasonFlags),
    optional "cRLIssuer" (implicit .context 2 GeneralNames)]

/-- `CRLDistributionPoints ::=` -/
def CRLDistributionPoints : Ty :=
  constrained (SIZE_MAX 1) (SEQUENCE_OF DistributionPoint)

/-- `KeyPurposeId ::=` -/
def KeyPurposeId : Ty :=
  OBJECT_IDENTIFIER

/-- `ExtKeyUsageSyntax ::=` -/
def ExtKeyUsageSyntax : Ty :=
  constrained (SIZE_MAX 1) (SEQUENCE_OF KeyPurposeId)

/-- `InhibitAnyPolicy ::=` -/
def InhibitAnyPolicy : Ty :=
  SkipCerts

/-- `FreshestCRL ::=` -/
def FreshestCRL : Ty :=
  CRLDistributionPoints

/-- `AccessDescription ::=` -/
def AccessDescription : Ty :=
  SEQUENCE [
    mandatory "accessMethod" OBJECT_IDENTIFIER,
    mandatory "accessLocation" GeneralName]

/-- `AuthorityInfoAccessSyntax ::=` -/
def AuthorityInfoAccessSyntax : Ty :=
  constrained (SIZE_MAX 1) (SEQUENCE_OF AccessDescription)

/-- `SubjectInfoAccessSyntax ::=` -/
def SubjectInfoAccessSyntax : Ty :=
  constrained (SIZE_MAX 1) (SEQUENCE_OF AccessDescription)

/-- `CRLNumber ::=` -/
def CRLNumber : Ty :=
  constrained (RANGE_MAX 0) INTEGER

/-- `IssuingDistributionPoint ::=` -/
def IssuingDistributionPoint : Ty :=
  SEQUENCE [
    optional "distributionPoint" (implicit .context 0 DistributionPointName),
    default "onlyContainsUserCerts" (implicit .context 1 BOOLEAN) (.int 0),
    default "onlyContainsCACerts" (implicit .context 2 BOOLEAN) (.int 0),
    optional "onlySomeReasons" (implicit .context 3 ReasonFlags),
    default "indirectCRL" (implicit .context 4 BOOLEAN) (.int 0),
    default "onlyContainsAttributeCerts" (implicit .context 5 BOOLEAN) (.int 0)]

/-- `BaseCRLNumber ::=` -/
def BaseCRLNumber : Ty :=
  CRLNumber

/-- `CRLReason ::=` -/
def CRLReason : Ty :=
  named [("unspecified", 0), ("keyCompromise", 1), ("cACompromise", 2), ("affiliationChanged", 3), ("superseded", 4), ("cessationOfOperation", 5), ("certificateHold", 6), ("removeFromCRL", 8), ("privilegeWithdrawn", 9), ("aACompromise", 10)] ENUMERATED

/-- `CertificateIssuer ::=` -/
def CertificateIssuer : Ty :=
  GeneralNames

/-- `HoldInstructionCode ::=` -/
def HoldInstructionCode : Ty :=
  OBJECT_IDENTIFIER

/-- `InvalidityDate ::=` -/
def InvalidityDate : Ty :=
  GeneralizedTime

/-- Classes of rfc5280.py and the types of the standard they implement. -/
def entries : List Entry :=
  [⟨"rfc5280.TerminalType", Verif.Rfc5280.TerminalType, TerminalType, .relaxed, false⟩,
   ⟨"rfc5280.Extension", Verif.Rfc5280.Extension, Extension, .same, false⟩,
   ⟨"rfc5280.Extensions", Verif.Rfc5280.Extensions, Extensions, .same, false⟩,
   ⟨"rfc5280.UnformattedPostalAddress", Verif.Rfc5280.UnformattedPostalAddress, UnformattedPostalAddress, .relaxed, false⟩,
   ⟨"rfc5280.X520OrganizationName", Verif.Rfc5280.X520OrganizationName, X520OrganizationName, .same, false⟩,
   ⟨"rfc5280.PostalCode", Verif.Rfc5280.PostalCode, PostalCode, .same, false⟩,
   ⟨"rfc5280.DomainComponent", Verif.Rfc5280.DomainComponent, DomainComponent, .same, false⟩,
   ⟨"rfc5280.AttributeType", Verif.Rfc5280.AttributeType, AttributeType, .same, false⟩,
   ⟨"rfc5280.PDSParameter", Verif.Rfc5280.PDSParameter, PDSParameter, .same, false⟩,
   ⟨"rfc5280.PhysicalDeliveryPersonalName", Verif.Rfc5280.PhysicalDeliveryPersonalName, PhysicalDeliveryPersonalName, .same, false⟩,
   ⟨"rfc5280.TeletexDomainDefinedAttribute", Verif.Rfc5280.TeletexDomainDefinedAttribute, TeletexDomainDefinedAttribute, .same, false⟩,
   ⟨"rfc5280.TeletexDomainDefinedAttributes", Verif.Rfc5280.TeletexDomainDefinedAttributes, TeletexDomainDefinedAttributes, .same, false⟩,
   ⟨"rfc5280.X520LocalityName", Verif.Rfc5280.X520LocalityName, X520LocalityName, .same, false⟩,
   ⟨"rfc5280.PersonalName", Verif.Rfc5280.PersonalName, PersonalName, .same, false⟩,
   ⟨"rfc5280.OrganizationalUnitName", Verif.Rfc5280.OrganizationalUnitName, OrganizationalUnitName, .same, false⟩,
   ⟨"rfc5280.Version", Verif.Rfc5280.Version, Version, .same, false⟩,
   ⟨"rfc5280.CertificateSerialNumber", Verif.Rfc5280.CertificateSerialNumber, CertificateSerialNumber, .same, false⟩,
   ⟨"rfc5280.AlgorithmIdentifier", Verif.Rfc5280.AlgorithmIdentifier, AlgorithmIdentifier, .same, false⟩,
   ⟨"rfc5280.Time", Verif.Rfc5280.Time, Time, .same, false⟩,
   ⟨"rfc5280.AttributeValue", Verif.Rfc5280.AttributeValue, AttributeValue, .same, false⟩,
   ⟨"rfc5280.AttributeTypeAndValue", Verif.Rfc5280.AttributeTypeAndValue, AttributeTypeAndValue, .same, false⟩,
   ⟨"rfc5280.RelativeDistinguishedName", Verif.Rfc5280.RelativeDistinguishedName, RelativeDistinguishedName, .same, false⟩,
   ⟨"rfc5280.RDNSequence", Verif.Rfc5280.RDNSequence, RDNSequence, .same, false⟩,
   ⟨"rfc5280.Name", Verif.Rfc5280.Name, Name, .same, false⟩,
   ⟨"rfc5280.TBSCertList", Verif.Rfc5280.TBSCertList, TBSCertList, .same, false⟩,
   ⟨"rfc5280.CertificateList", Verif.Rfc5280.CertificateList, CertificateList, .same, false⟩,
   ⟨"rfc5280.PhysicalDeliveryOfficeName", Verif.Rfc5280.PhysicalDeliveryOfficeName, PhysicalDeliveryOfficeName, .same, false⟩,
   ⟨"rfc5280.ExtensionAttribute", Verif.Rfc5280.ExtensionAttribute, ExtensionAttribute, .same, false⟩,
   ⟨"rfc5280.X520dnQualifier", Verif.Rfc5280.X520dnQualifier, X520dnQualifier, .same, false⟩,
   ⟨"rfc5280.PosteRestanteAddress", Verif.Rfc5280.PosteRestanteAddress, PosteRestanteAddress, .same, false⟩,
   ⟨"rfc5280.UniqueIdentifier", Verif.Rfc5280.UniqueIdentifier, UniqueIdentifier, .same, false⟩,
   ⟨"rfc5280.Validity", Verif.Rfc5280.Validity, Validity, .same, false⟩,
   ⟨"rfc5280.SubjectPublicKeyInfo", Verif.Rfc5280.SubjectPublicKeyInfo, SubjectPublicKeyInfo, .same, false⟩,
   ⟨"rfc5280.TBSCertificate", Verif.Rfc5280.TBSCertificate, TBSCertificate, .same, false⟩,
   ⟨"rfc5280.X520name", Verif.Rfc5280.X520name, X520name, .same, false⟩,
   ⟨"rfc5280.X121Address", Verif.Rfc5280.X121Address, X121Address, .same, false⟩,
   ⟨"rfc5280.NetworkAddress", Verif.Rfc5280.NetworkAddress, NetworkAddress, .same, false⟩,
   ⟨"rfc5280.PhysicalDeliveryCountryName", Verif.Rfc5280.PhysicalDeliveryCountryName, PhysicalDeliveryCountryName, .same, false⟩,
   ⟨"rfc5280.X520Pseudonym", Verif.Rfc5280.X520Pseudonym, X520Pseudonym, .same, false⟩,
   ⟨"rfc5280.AdministrationDomainName", Verif.Rfc5280.AdministrationDomainName, AdministrationDomainName, .same, false⟩,
   ⟨"rfc5280.PresentationAddress", Verif.Rfc5280.PresentationAddress, PresentationAddress, .relaxed, false⟩,
   ⟨"rfc5280.ExtendedNetworkAddress", Verif.Rfc5280.ExtendedNetworkAddress, ExtendedNetworkAddress, .relaxed, false⟩,
   ⟨"rfc5280.TeletexOrganizationName", Verif.Rfc5280.TeletexOrganizationName, TeletexOrganizationName, .same, false⟩,
   ⟨"rfc5280.TerminalIdentifier", Verif.Rfc5280.TerminalIdentifier, TerminalIdentifier, .same, false⟩,
   ⟨"rfc5280.StreetAddress", Verif.Rfc5280.StreetAddress, StreetAddress, .same, false⟩,
   ⟨"rfc5280.ExtensionAttributes", Verif.Rfc5280.ExtensionAttributes, ExtensionAttributes, .same, false⟩,
   ⟨"rfc5280.ExtensionORAddressComponents", Verif.Rfc5280.ExtensionORAddressComponents, ExtensionORAddressComponents, .same, false⟩,
   ⟨"rfc5280.X520OrganizationalUnitName", Verif.Rfc5280.X520OrganizationalUnitName, X520OrganizationalUnitName, .same, false⟩,
   ⟨"rfc5280.LocalPostalAttributes", Verif.Rfc5280.LocalPostalAttributes, LocalPostalAttributes, .same, false⟩,
   ⟨"rfc5280.X520Title", Verif.Rfc5280.X520Title, X520Title, .same, false⟩,
   ⟨"rfc5280.X520StateOrProvinceName", Verif.Rfc5280.X520StateOrProvinceName, X520StateOrProvinceName, .same, false⟩,
   ⟨"rfc5280.X520countryName", Verif.Rfc5280.X520countryName, X520countryName, .same, false⟩,
   ⟨"rfc5280.X520SerialNumber", Verif.Rfc5280.X520SerialNumber, X520SerialNumber, .same, false⟩,
   ⟨"rfc5280.Attribute", Verif.Rfc5280.Attribute, Attribute, .same, false⟩,
   ⟨"rfc5280.ExtensionPhysicalDeliveryAddressComponents", Verif.Rfc5280.ExtensionPhysicalDeliveryAddressComponents, ExtensionPhysicalDeliveryAddressComponents, .same, false⟩,
   ⟨"rfc5280.EmailAddress", Verif.Rfc5280.EmailAddress, EmailAddress, .same, false⟩,
   ⟨"rfc5280.BuiltInDomainDefinedAttribute", Verif.Rfc5280.BuiltInDomainDefinedAttribute, BuiltInDomainDefinedAttribute, .same, false⟩,
   ⟨"rfc5280.BuiltInDomainDefinedAttributes", Verif.Rfc5280.BuiltInDomainDefinedAttributes, BuiltInDomainDefinedAttributes, .same, false⟩,
   ⟨"rfc5280.X520CommonName", Verif.Rfc5280.X520CommonName, X520CommonName, .same, false⟩,
   ⟨"rfc5280.TeletexCommonName", Verif.Rfc5280.TeletexCommonName, TeletexCommonName, .same, false⟩,
   ⟨"rfc5280.PhysicalDeliveryOrganizationName", Verif.Rfc5280.PhysicalDeliveryOrganizationName, PhysicalDeliveryOrganizationName, .same, false⟩,
   ⟨"rfc5280.NumericUserIdentifier", Verif.Rfc5280.NumericUserIdentifier, NumericUserIdentifier, .same, false⟩,
   ⟨"rfc5280.CountryName", Verif.Rfc5280.CountryName, CountryName, .same, false⟩,
   ⟨"rfc5280.OrganizationName", Verif.Rfc5280.OrganizationName, OrganizationName, .same, false⟩,
   ⟨"rfc5280.OrganizationalUnitNames", Verif.Rfc5280.OrganizationalUnitNames, OrganizationalUnitNames, .same, false⟩,
   ⟨"rfc5280.PrivateDomainName", Verif.Rfc5280.PrivateDomainName, PrivateDomainName, .same, false⟩,
   ⟨"rfc5280.BuiltInStandardAttributes", Verif.Rfc5280.BuiltInStandardAttributes, BuiltInStandardAttributes, .same, false⟩,
   ⟨"rfc5280.ORAddress", Verif.Rfc5280.ORAddress, ORAddress, .same, false⟩,
   ⟨"rfc5280.DistinguishedName", Verif.Rfc5280.DistinguishedName, DistinguishedName, .same, false⟩,
   ⟨"rfc5280.PhysicalDeliveryOfficeNumber", Verif.Rfc5280.PhysicalDeliveryOfficeNumber, PhysicalDeliveryOfficeNumber, .same, false⟩,
   ⟨"rfc5280.UniquePostalName", Verif.Rfc5280.UniquePostalName, UniquePostalName, .same, false⟩,
   ⟨"rfc5280.PDSName", Verif.Rfc5280.PDSName, PDSName, .same, false⟩,
   ⟨"rfc5280.TeletexPersonalName", Verif.Rfc5280.TeletexPersonalName, TeletexPersonalName, .same, false⟩,
   ⟨"rfc5280.PostOfficeBoxAddress", Verif.Rfc5280.PostOfficeBoxAddress, PostOfficeBoxAddress, .same, false⟩,
   ⟨"rfc5280.DirectoryString", Verif.Rfc5280.DirectoryString, DirectoryString, .same, false⟩,
   ⟨"rfc5280.CommonName", Verif.Rfc5280.CommonName, CommonName, .same, false⟩,
   ⟨"rfc5280.Certificate", Verif.Rfc5280.Certificate, Certificate, .same, false⟩,
   ⟨"rfc5280.TeletexOrganizationalUnitName", Verif.Rfc5280.TeletexOrganizationalUnitName, TeletexOrganizationalUnitName, .same, false⟩,
   ⟨"rfc5280.TeletexOrganizationalUnitNames", Verif.Rfc5280.TeletexOrganizationalUnitNames, TeletexOrganizationalUnitNames, .same, false⟩,
   ⟨"rfc5280.SkipCerts", Verif.Rfc5280.SkipCerts, SkipCerts, .same, false⟩,
   ⟨"rfc5280.CRLReason", Verif.Rfc5280.CRLReason, CRLReason, .same, false⟩,
   ⟨"rfc5280.PrivateKeyUsagePeriod", Verif.Rfc5280.PrivateKeyUsagePeriod, PrivateKeyUsagePeriod, .same, false⟩,
   ⟨"rfc5280.AnotherName", Verif.Rfc5280.AnotherName, AnotherName, .same, false⟩,
   ⟨"rfc5280.EDIPartyName", Verif.Rfc5280.EDIPartyName, EDIPartyName, .same, false⟩,
   ⟨"rfc5280.GeneralName", Verif.Rfc5280.GeneralName, GeneralName, .same, false⟩,
   ⟨"rfc5280.BaseDistance", Verif.Rfc5280.BaseDistance, BaseDistance, .same, false⟩,
   ⟨"rfc5280.GeneralSubtree", Verif.Rfc5280.GeneralSubtree, GeneralSubtree, .same, false⟩,
   ⟨"rfc5280.GeneralNames", Verif.Rfc5280.GeneralNames, GeneralNames, .same, false⟩,
   ⟨"rfc5280.DistributionPointName", Verif.Rfc5280.DistributionPointName, DistributionPointName, .same, false⟩,
   ⟨"rfc5280.ReasonFlags", Verif.Rfc5280.ReasonFlags, ReasonFlags, .same, false⟩,
   ⟨"rfc5280.IssuingDistributionPoint", Verif.Rfc5280.IssuingDistributionPoint, IssuingDistributionPoint, .same, false⟩,
   ⟨"rfc5280.AccessDescription", Verif.Rfc5280.AccessDescription, AccessDescription, .same, false⟩,
   ⟨"rfc5280.IssuerAltName", Verif.Rfc5280.IssuerAltName, IssuerAltName, .same, false⟩,
   ⟨"rfc5280.DistributionPoint", Verif.Rfc5280.DistributionPoint, DistributionPoint, .same, false⟩,
   ⟨"rfc5280.CRLDistributionPoints", Verif.Rfc5280.CRLDistributionPoints, CRLDistributionPoints, .same, false⟩,
   ⟨"rfc5280.GeneralSubtrees", Verif.Rfc5280.GeneralSubtrees, GeneralSubtrees, .same, false⟩,
   ⟨"rfc5280.NameConstraints", Verif.Rfc5280.NameConstraints, NameConstraints, .same, false⟩,
   ⟨"rfc5280.SubjectDirectoryAttributes", Verif.Rfc5280.SubjectDirectoryAttributes, SubjectDirectoryAttributes, .same, false⟩,
   ⟨"rfc5280.DisplayText", Verif.Rfc5280.DisplayText, DisplayText, .same, false⟩,
   ⟨"rfc5280.NoticeReference", Verif.Rfc5280.NoticeReference, NoticeReference, .same, false⟩,
   ⟨"rfc5280.UserNotice", Verif.Rfc5280.UserNotice, UserNotice, .same, false⟩,
   ⟨"rfc5280.PolicyQualifierId", Verif.Rfc5280.PolicyQualifierId, PolicyQualifierId, .relaxed, false⟩,
   ⟨"rfc5280.PolicyQualifierInfo", Verif.Rfc5280.PolicyQualifierInfo, PolicyQualifierInfo, .relaxed, false⟩,
   ⟨"rfc5280.CertPolicyId", Verif.Rfc5280.CertPolicyId, CertPolicyId, .same, false⟩,
   ⟨"rfc5280.PolicyInformation", Verif.Rfc5280.PolicyInformation, PolicyInformation, .relaxed, false⟩,
   ⟨"rfc5280.CertificatePolicies", Verif.Rfc5280.CertificatePolicies, CertificatePolicies, .relaxed, false⟩,
   ⟨"rfc5280.SubjectAltName", Verif.Rfc5280.SubjectAltName, SubjectAltName, .same, false⟩,
   ⟨"rfc5280.BasicConstraints", Verif.Rfc5280.BasicConstraints, BasicConstraints, .same, false⟩,
   ⟨"rfc5280.PolicyMappings", Verif.Rfc5280.PolicyMappings, PolicyMappings, .same, false⟩,
   ⟨"rfc5280.InhibitAnyPolicy", Verif.Rfc5280.InhibitAnyPolicy, InhibitAnyPolicy, .same, false⟩,
   ⟨"rfc5280.CRLNumber", Verif.Rfc5280.CRLNumber, CRLNumber, .same, false⟩,
   ⟨"rfc5280.BaseCRLNumber", Verif.Rfc5280.BaseCRLNumber, BaseCRLNumber, .same, false⟩,
   ⟨"rfc5280.KeyIdentifier", Verif.Rfc5280.KeyIdentifier, KeyIdentifier, .same, false⟩,
   ⟨"rfc5280.AuthorityKeyIdentifier", Verif.Rfc5280.AuthorityKeyIdentifier, AuthorityKeyIdentifier, .same, false⟩,
   ⟨"rfc5280.FreshestCRL", Verif.Rfc5280.FreshestCRL, FreshestCRL, .same, false⟩,
   ⟨"rfc5280.AuthorityInfoAccessSyntax", Verif.Rfc5280.AuthorityInfoAccessSyntax, AuthorityInfoAccessSyntax, .same, false⟩,
   ⟨"rfc5280.CPSuri", Verif.Rfc5280.CPSuri, CPSuri, .same, false⟩,
   ⟨"rfc5280.SubjectKeyIdentifier", Verif.Rfc5280.SubjectKeyIdentifier, SubjectKeyIdentifier, .same, false⟩,
   ⟨"rfc5280.KeyPurposeId", Verif.Rfc5280.KeyPurposeId, KeyPurposeId, .same, false⟩,
   ⟨"rfc5280.ExtKeyUsageSyntax", Verif.Rfc5280.ExtKeyUsageSyntax, ExtKeyUsageSyntax, .same, false⟩,
   ⟨"rfc5280.HoldInstructionCode", Verif.Rfc5280.HoldInstructionCode, HoldInstructionCode, .same, false⟩,
   ⟨"rfc5280.SubjectInfoAccessSyntax", Verif.Rfc5280.SubjectInfoAccessSyntax, SubjectInfoAccessSyntax, .same, false⟩,
   ⟨"rfc5280.InvalidityDate", Verif.Rfc5280.InvalidityDate, InvalidityDate, .same, false⟩,
   ⟨"rfc5280.KeyUsage", Verif.Rfc5280.KeyUsage, KeyUsage, .same, false⟩,
   ⟨"rfc5280.CertificateIssuer", Verif.Rfc5280.CertificateIssuer, CertificateIssuer, .same, false⟩,
   ⟨"rfc5280.PolicyConstraints", Verif.Rfc5280.PolicyConstraints, PolicyConstraints, .same, false⟩]

/-- Classes of rfc5280.py the transcription of the standard has no type for. -/
def beyond : List String :=
  []

/-- Constants of rfc5280.py and the values the standard gives them. -/
def constants : List Constant :=
  [⟨"rfc5280.ub_e163_4_sub_address_length", Verif.Rfc5280.ub_e163_4_sub_address_length, INTEGER, .int 40, true⟩,
   ⟨"rfc5280.ub_e163_4_number_length", Verif.Rfc5280.ub_e163_4_number_length, INTEGER, .int 15, true⟩,
   ⟨"rfc5280.unformatted_postal_address", Verif.Rfc5280.unformatted_postal_address, INTEGER, .int 16, true⟩,
   ⟨"rfc5280.physical_delivery_personal_name", Verif.Rfc5280.physical_delivery_personal_name, INTEGER, .int 13, true⟩,
   ⟨"rfc5280.ub_unformatted_address_length", Verif.Rfc5280.ub_unformatted_address_length, INTEGER, .int 180, true⟩,
   ⟨"rfc5280.ub_pds_parameter_length", Verif.Rfc5280.ub_pds_parameter_length, INTEGER, .int 30, true⟩,
   ⟨"rfc5280.ub_pds_physical_address_lines", Verif.Rfc5280.ub_pds_physical_address_lines, INTEGER, .int 6, true⟩,
   ⟨"rfc5280.ub_organization_name", Verif.Rfc5280.ub_organization_name, INTEGER, .int 64, true⟩,
   ⟨"rfc5280.ub_x121_address_length", Verif.Rfc5280.ub_x121_address_length, INTEGER, .int 16, true⟩,
   ⟨"rfc5280.pds_name", Verif.Rfc5280.pds_name, INTEGER, .int 7, true⟩,
   ⟨"rfc5280.id_pkix", Verif.Rfc5280.id_pkix, OBJECT_IDENTIFIER, .oid [1, 3, 6, 1, 5, 5, 7], true⟩,
   ⟨"rfc5280.id_kp", Verif.Rfc5280.id_kp, OBJECT_IDENTIFIER, .oid [1, 3, 6, 1, 5, 5, 7, 3], true⟩,
   ⟨"rfc5280.ub_postal_code_length", Verif.Rfc5280.ub_postal_code_length, INTEGER, .int 16, true⟩,
   ⟨"rfc5280.ub_generation_qualifier_length", Verif.Rfc5280.ub_generation_qualifier_length, INTEGER, .int 3, true⟩,
   ⟨"rfc5280.unique_postal_name", Verif.Rfc5280.unique_postal_name, INTEGER, .int 20, true⟩,
   ⟨"rfc5280.ub_domain_defined_attribute_value_length", Verif.Rfc5280.ub_domain_defined_attribute_value_length, INTEGER, .int 128, true⟩,
   ⟨"rfc5280.ub_match", Verif.Rfc5280.ub_match, INTEGER, .int 128, true⟩,
   ⟨"rfc5280.id_at", Verif.Rfc5280.id_at, OBJECT_IDENTIFIER, .oid [2, 5, 4], true⟩,
   ⟨"rfc5280.id_at_organizationalUnitName", Verif.Rfc5280.id_at_organizationalUnitName, OBJECT_IDENTIFIER, .oid [2, 5, 4, 11], true⟩,
   ⟨"rfc5280.terminal_type", Verif.Rfc5280.terminal_type, INTEGER, .int 23, true⟩,
   ⟨"rfc5280.ub_surname_length", Verif.Rfc5280.ub_surname_length, INTEGER, .int 40, true⟩,
   ⟨"rfc5280.id_ad", Verif.Rfc5280.id_ad, OBJECT_IDENTIFIER, .oid [1, 3, 6, 1, 5, 5, 7, 48], true⟩,
   ⟨"rfc5280.ub_domain_defined_attribute_type_length", Verif.Rfc5280.ub_domain_defined_attribute_type_length, INTEGER, .int 8, true⟩,
   ⟨"rfc5280.ub_domain_defined_attributes", Verif.Rfc5280.ub_domain_defined_attributes, INTEGER, .int 4, true⟩,
   ⟨"rfc5280.extended_network_address", Verif.Rfc5280.extended_network_address, INTEGER, .int 22, true⟩,
   ⟨"rfc5280.ub_locality_name", Verif.Rfc5280.ub_locality_name, INTEGER, .int 128, true⟩,
   ⟨"rfc5280.teletex_organization_name", Verif.Rfc5280.teletex_organization_name, INTEGER, .int 3, true⟩,
   ⟨"rfc5280.ub_given_name_length", Verif.Rfc5280.ub_given_name_length, INTEGER, .int 16, true⟩,
   ⟨"rfc5280.ub_initials_length", Verif.Rfc5280.ub_initials_length, INTEGER, .int 5, true⟩,
   ⟨"rfc5280.ub_organizational_unit_name_length", Verif.Rfc5280.ub_organizational_unit_name_length, INTEGER, .int 32, true⟩,
   ⟨"rfc5280.id_at_generationQualifier", Verif.Rfc5280.id_at_generationQualifier, OBJECT_IDENTIFIER, .oid [2, 5, 4, 44], true⟩,
   ⟨"rfc5280.ub_extension_attributes", Verif.Rfc5280.ub_extension_attributes, INTEGER, .int 256, true⟩,
   ⟨"rfc5280.id_qt", Verif.Rfc5280.id_qt, OBJECT_IDENTIFIER, .oid [1, 3, 6, 1, 5, 5, 7, 2], true⟩,
   ⟨"rfc5280.id_qt_cps", Verif.Rfc5280.id_qt_cps, OBJECT_IDENTIFIER, .oid [1, 3, 6, 1, 5, 5, 7, 2, 1], true⟩,
   ⟨"rfc5280.id_at_stateOrProvinceName", Verif.Rfc5280.id_at_stateOrProvinceName, OBJECT_IDENTIFIER, .oid [2, 5, 4, 8], true⟩,
   ⟨"rfc5280.id_at_title", Verif.Rfc5280.id_at_title, OBJECT_IDENTIFIER, .oid [2, 5, 4, 12], true⟩,
   ⟨"rfc5280.id_at_serialNumber", Verif.Rfc5280.id_at_serialNumber, OBJECT_IDENTIFIER, .oid [2, 5, 4, 5], true⟩,
   ⟨"rfc5280.poste_restante_address", Verif.Rfc5280.poste_restante_address, INTEGER, .int 19, true⟩,
   ⟨"rfc5280.physical_delivery_office_name", Verif.Rfc5280.physical_delivery_office_name, INTEGER, .int 10, true⟩,
   ⟨"rfc5280.ub_name", Verif.Rfc5280.ub_name, INTEGER, .int 32768, true⟩,
   ⟨"rfc5280.id_at_dnQualifier", Verif.Rfc5280.id_at_dnQualifier, OBJECT_IDENTIFIER, .oid [2, 5, 4, 46], true⟩,
   ⟨"rfc5280.ub_serial_number", Verif.Rfc5280.ub_serial_number, INTEGER, .int 64, true⟩,
   ⟨"rfc5280.ub_pseudonym", Verif.Rfc5280.ub_pseudonym, INTEGER, .int 128, true⟩,
   ⟨"rfc5280.pkcs_9", Verif.Rfc5280.pkcs_9, OBJECT_IDENTIFIER, .oid [1, 2, 840, 113549, 1, 9], true⟩,
   ⟨"rfc5280.ub_integer_options", Verif.Rfc5280.ub_integer_options, INTEGER, .int 256, true⟩,
   ⟨"rfc5280.id_at_commonName", Verif.Rfc5280.id_at_commonName, OBJECT_IDENTIFIER, .oid [2, 5, 4, 3], true⟩,
   ⟨"rfc5280.ub_organization_name_length", Verif.Rfc5280.ub_organization_name_length, INTEGER, .int 64, true⟩,
   ⟨"rfc5280.id_ad_ocsp", Verif.Rfc5280.id_ad_ocsp, OBJECT_IDENTIFIER, .oid [1, 3, 6, 1, 5, 5, 7, 48, 1], true⟩,
   ⟨"rfc5280.ub_country_name_numeric_length", Verif.Rfc5280.ub_country_name_numeric_length, INTEGER, .int 3, true⟩,
   ⟨"rfc5280.ub_country_name_alpha_length", Verif.Rfc5280.ub_country_name_alpha_length, INTEGER, .int 2, true⟩,
   ⟨"rfc5280.id_emailAddress", Verif.Rfc5280.id_emailAddress, OBJECT_IDENTIFIER, .oid [1, 2, 840, 113549, 1, 9, 1], true⟩,
   ⟨"rfc5280.common_name", Verif.Rfc5280.common_name, INTEGER, .int 1, true⟩,
   ⟨"rfc5280.ub_domain_name_length", Verif.Rfc5280.ub_domain_name_length, INTEGER, .int 16, true⟩,
   ⟨"rfc5280.ub_terminal_id_length", Verif.Rfc5280.ub_terminal_id_length, INTEGER, .int 24, true⟩,
   ⟨"rfc5280.id_ad_caIssuers", Verif.Rfc5280.id_ad_caIssuers, OBJECT_IDENTIFIER, .oid [1, 3, 6, 1, 5, 5, 7, 48, 2], true⟩,
   ⟨"rfc5280.id_at_countryName", Verif.Rfc5280.id_at_countryName, OBJECT_IDENTIFIER, .oid [2, 5, 4, 6], true⟩,
   ⟨"rfc5280.postal_code", Verif.Rfc5280.postal_code, INTEGER, .int 9, true⟩,
   ⟨"rfc5280.id_at_givenName", Verif.Rfc5280.id_at_givenName, OBJECT_IDENTIFIER, .oid [2, 5, 4, 42], true⟩,
   ⟨"rfc5280.ub_title", Verif.Rfc5280.ub_title, INTEGER, .int 64, true⟩,
   ⟨"rfc5280.ub_emailaddress_length", Verif.Rfc5280.ub_emailaddress_length, INTEGER, .int 255, true⟩,
   ⟨"rfc5280.id_ad_caRepository", Verif.Rfc5280.id_ad_caRepository, OBJECT_IDENTIFIER, .oid [1, 3, 6, 1, 5, 5, 7, 48, 5], true⟩,
   ⟨"rfc5280.ub_organizational_unit_name", Verif.Rfc5280.ub_organizational_unit_name, INTEGER, .int 64, true⟩,
   ⟨"rfc5280.teletex_organizational_unit_names", Verif.Rfc5280.teletex_organizational_unit_names, INTEGER, .int 5, true⟩,
   ⟨"rfc5280.id_at_localityName", Verif.Rfc5280.id_at_localityName, OBJECT_IDENTIFIER, .oid [2, 5, 4, 7], true⟩,
   ⟨"rfc5280.id_at_initials", Verif.Rfc5280.id_at_initials, OBJECT_IDENTIFIER, .oid [2, 5, 4, 43], true⟩,
   ⟨"rfc5280.ub_state_name", Verif.Rfc5280.ub_state_name, INTEGER, .int 128, true⟩,
   ⟨"rfc5280.physical_delivery_organization_name", Verif.Rfc5280.physical_delivery_organization_name, INTEGER, .int 14, true⟩,
   ⟨"rfc5280.id_at_surname", Verif.Rfc5280.id_at_surname, OBJECT_IDENTIFIER, .oid [2, 5, 4, 4], true⟩,
   ⟨"rfc5280.physical_delivery_office_number", Verif.Rfc5280.physical_delivery_office_number, INTEGER, .int 11, true⟩,
   ⟨"rfc5280.id_qt_unotice", Verif.Rfc5280.id_qt_unotice, OBJECT_IDENTIFIER, .oid [1, 3, 6, 1, 5, 5, 7, 2, 2], true⟩,
   ⟨"rfc5280.ub_common_name", Verif.Rfc5280.ub_common_name, INTEGER, .int 64, true⟩,
   ⟨"rfc5280.id_pe", Verif.Rfc5280.id_pe, OBJECT_IDENTIFIER, .oid [1, 3, 6, 1, 5, 5, 7, 1], true⟩,
   ⟨"rfc5280.id_at_organizationName", Verif.Rfc5280.id_at_organizationName, OBJECT_IDENTIFIER, .oid [2, 5, 4, 10], true⟩,
   ⟨"rfc5280.post_office_box_address", Verif.Rfc5280.post_office_box_address, INTEGER, .int 18, true⟩,
   ⟨"rfc5280.id_at_pseudonym", Verif.Rfc5280.id_at_pseudonym, OBJECT_IDENTIFIER, .oid [2, 5, 4, 65], true⟩,
   ⟨"rfc5280.id_domainComponent", Verif.Rfc5280.id_domainComponent, OBJECT_IDENTIFIER, .oid [0, 9, 2342, 19200300, 100, 1, 25], true⟩,
   ⟨"rfc5280.extension_OR_address_components", Verif.Rfc5280.extension_OR_address_components, INTEGER, .int 12, true⟩,
   ⟨"rfc5280.ub_organizational_units", Verif.Rfc5280.ub_organizational_units, INTEGER, .int 4, true⟩,
   ⟨"rfc5280.teletex_personal_name", Verif.Rfc5280.teletex_personal_name, INTEGER, .int 4, true⟩,
   ⟨"rfc5280.ub_numeric_user_id_length", Verif.Rfc5280.ub_numeric_user_id_length, INTEGER, .int 32, true⟩,
   ⟨"rfc5280.ub_common_name_length", Verif.Rfc5280.ub_common_name_length, INTEGER, .int 64, true⟩,
   ⟨"rfc5280.extension_physical_delivery_address_components", Verif.Rfc5280.extension_physical_delivery_address_components, INTEGER, .int 15, true⟩,
   ⟨"rfc5280.id_ad_timeStamping", Verif.Rfc5280.id_ad_timeStamping, OBJECT_IDENTIFIER, .oid [1, 3, 6, 1, 5, 5, 7, 48, 3], true⟩,
   ⟨"rfc5280.teletex_domain_defined_attributes", Verif.Rfc5280.teletex_domain_defined_attributes, INTEGER, .int 6, true⟩,
   ⟨"rfc5280.physical_delivery_country_name", Verif.Rfc5280.physical_delivery_country_name, INTEGER, .int 8, true⟩,
   ⟨"rfc5280.ub_pds_name_length", Verif.Rfc5280.ub_pds_name_length, INTEGER, .int 16, true⟩,
   ⟨"rfc5280.street_address", Verif.Rfc5280.street_address, INTEGER, .int 17, true⟩,
   ⟨"rfc5280.local_postal_attributes", Verif.Rfc5280.local_postal_attributes, INTEGER, .int 21, true⟩,
   ⟨"rfc5280.teletex_common_name", Verif.Rfc5280.teletex_common_name, INTEGER, .int 2, true⟩,
   ⟨"rfc5280.id_at_name", Verif.Rfc5280.id_at_name, OBJECT_IDENTIFIER, .oid [2, 5, 4, 41], true⟩,
   ⟨"rfc5280.id_ce", Verif.Rfc5280.id_ce, OBJECT_IDENTIFIER, .oid [2, 5, 29], true⟩,
   ⟨"rfc5280.id_ce_issuerAltName", Verif.Rfc5280.id_ce_issuerAltName, OBJECT_IDENTIFIER, .oid [2, 5, 29, 18], true⟩,
   ⟨"rfc5280.id_ce_certificatePolicies", Verif.Rfc5280.id_ce_certificatePolicies, OBJECT_IDENTIFIER, .oid [2, 5, 29, 32], true⟩,
   ⟨"rfc5280.id_kp_emailProtection", Verif.Rfc5280.id_kp_emailProtection, OBJECT_IDENTIFIER, .oid [1, 3, 6, 1, 5, 5, 7, 3, 4], true⟩,
   ⟨"rfc5280.id_ce_cRLDistributionPoints", Verif.Rfc5280.id_ce_cRLDistributionPoints, OBJECT_IDENTIFIER, .oid [2, 5, 29, 31], true⟩,
   ⟨"rfc5280.holdInstruction", Verif.Rfc5280.holdInstruction, OBJECT_IDENTIFIER, .oid [2, 2, 840, 10040, 2], true⟩,
   ⟨"rfc5280.id_holdinstruction_callissuer", Verif.Rfc5280.id_holdinstruction_callissuer, OBJECT_IDENTIFIER, .oid [2, 2, 840, 10040, 2, 2], true⟩,
   ⟨"rfc5280.id_ce_subjectDirectoryAttributes", Verif.Rfc5280.id_ce_subjectDirectoryAttributes, OBJECT_IDENTIFIER, .oid [2, 5, 29, 9], true⟩,
   ⟨"rfc5280.id_ce_issuingDistributionPoint", Verif.Rfc5280.id_ce_issuingDistributionPoint, OBJECT_IDENTIFIER, .oid [2, 5, 29, 28], true⟩,
   ⟨"rfc5280.id_kp_OCSPSigning", Verif.Rfc5280.id_kp_OCSPSigning, OBJECT_IDENTIFIER, .oid [1, 3, 6, 1, 5, 5, 7, 3, 9], true⟩,
   ⟨"rfc5280.id_kp_timeStamping", Verif.Rfc5280.id_kp_timeStamping, OBJECT_IDENTIFIER, .oid [1, 3, 6, 1, 5, 5, 7, 3, 8], true⟩,
   ⟨"rfc5280.id_ce_basicConstraints", Verif.Rfc5280.id_ce_basicConstraints, OBJECT_IDENTIFIER, .oid [2, 5, 29, 19], true⟩,
   ⟨"rfc5280.id_ce_authorityKeyIdentifier", Verif.Rfc5280.id_ce_authorityKeyIdentifier, OBJECT_IDENTIFIER, .oid [2, 5, 29, 35], true⟩,
   ⟨"rfc5280.id_kp_codeSigning", Verif.Rfc5280.id_kp_codeSigning, OBJECT_IDENTIFIER, .oid [1, 3, 6, 1, 5, 5, 7, 3, 3], true⟩,
   ⟨"rfc5280.id_ce_certificateIssuer", Verif.Rfc5280.id_ce_certificateIssuer, OBJECT_IDENTIFIER, .oid [2, 5, 29, 29], true⟩,
   ⟨"rfc5280.anyPolicy", Verif.Rfc5280.anyPolicy, OBJECT_IDENTIFIER, .oid [2, 5, 29, 32, 0], true⟩,
   ⟨"rfc5280.id_ce_nameConstraints", Verif.Rfc5280.id_ce_nameConstraints, OBJECT_IDENTIFIER, .oid [2, 5, 29, 30], true⟩,
   ⟨"rfc5280.id_kp_serverAuth", Verif.Rfc5280.id_kp_serverAuth, OBJECT_IDENTIFIER, .oid [1, 3, 6, 1, 5, 5, 7, 3, 1], true⟩,
   ⟨"rfc5280.id_ce_freshestCRL", Verif.Rfc5280.id_ce_freshestCRL, OBJECT_IDENTIFIER, .oid [2, 5, 29, 46], true⟩,
   ⟨"rfc5280.id_ce_cRLReasons", Verif.Rfc5280.id_ce_cRLReasons, OBJECT_IDENTIFIER, .oid [2, 5, 29, 21], true⟩,
   ⟨"rfc5280.id_ce_extKeyUsage", Verif.Rfc5280.id_ce_extKeyUsage, OBJECT_IDENTIFIER, .oid [2, 5, 29, 37], true⟩,
   ⟨"rfc5280.id_ce_policyConstraints", Verif.Rfc5280.id_ce_policyConstraints, OBJECT_IDENTIFIER, .oid [2, 5, 29, 36], true⟩,
   ⟨"rfc5280.id_pe_authorityInfoAccess", Verif.Rfc5280.id_pe_authorityInfoAccess, OBJECT_IDENTIFIER, .oid [1, 3, 6, 1, 5, 5, 7, 1, 1], true⟩,
   ⟨"rfc5280.id_holdinstruction_none", Verif.Rfc5280.id_holdinstruction_none, OBJECT_IDENTIFIER, .oid [2, 2, 840, 10040, 2, 1], true⟩,
   ⟨"rfc5280.id_pe_subjectInfoAccess", Verif.Rfc5280.id_pe_subjectInfoAccess, OBJECT_IDENTIFIER, .oid [1, 3, 6, 1, 5, 5, 7, 1, 11], true⟩,
   ⟨"rfc5280.id_ce_subjectAltName", Verif.Rfc5280.id_ce_subjectAltName, OBJECT_IDENTIFIER, .oid [2, 5, 29, 17], true⟩,
   ⟨"rfc5280.id_ce_deltaCRLIndicator", Verif.Rfc5280.id_ce_deltaCRLIndicator, OBJECT_IDENTIFIER, .oid [2, 5, 29, 27], true⟩,
   ⟨"rfc5280.id_ce_keyUsage", Verif.Rfc5280.id_ce_keyUsage, OBJECT_IDENTIFIER, .oid [2, 5, 29, 15], true⟩,
   ⟨"rfc5280.id_ce_holdInstructionCode", Verif.Rfc5280.id_ce_holdInstructionCode, OBJECT_IDENTIFIER, .oid [2, 5, 29, 23], true⟩,
   ⟨"rfc5280.id_ce_invalidityDate", Verif.Rfc5280.id_ce_invalidityDate, OBJECT_IDENTIFIER, .oid [2, 5, 29, 24], true⟩,
   ⟨"rfc5280.id_ce_policyMappings", Verif.Rfc5280.id_ce_policyMappings, OBJECT_IDENTIFIER, .oid [2, 5, 29, 33], true⟩,
   ⟨"rfc5280.anyExtendedKeyUsage", Verif.Rfc5280.anyExtendedKeyUsage, OBJECT_IDENTIFIER, .oid [2, 5, 29, 37, 0], true⟩,
   ⟨"rfc5280.id_ce_privateKeyUsagePeriod", Verif.Rfc5280.id_ce_privateKeyUsagePeriod, OBJECT_IDENTIFIER, .oid [2, 5, 29, 16], true⟩,
   ⟨"rfc5280.id_ce_cRLNumber", Verif.Rfc5280.id_ce_cRLNumber, OBJECT_IDENTIFIER, .oid [2, 5, 29, 20], true⟩,
   ⟨"rfc5280.id_holdinstruction_reject", Verif.Rfc5280.id_holdinstruction_reject, OBJECT_IDENTIFIER, .oid [2, 2, 840, 10040, 2, 3], true⟩,
   ⟨"rfc5280.id_kp_clientAuth", Verif.Rfc5280.id_kp_clientAuth, OBJECT_IDENTIFIER, .oid [1, 3, 6, 1, 5, 5, 7, 3, 2], true⟩,
   ⟨"rfc5280.id_ce_subjectKeyIdentifier", Verif.Rfc5280.id_ce_subjectKeyIdentifier, OBJECT_IDENTIFIER, .oid [2, 5, 29, 14], true⟩,
   ⟨"rfc5280.id_ce_inhibitAnyPolicy", Verif.Rfc5280.id_ce_inhibitAnyPolicy, OBJECT_IDENTIFIER, .oid [2, 5, 29, 54], true⟩]

/-- Constants of rfc5280.py the transcription of the standard has no value for. -/
def others : List String :=
  []

def standard : Standard := ⟨Verif.Rfc5280.asModule, entries, beyond, constants, others⟩

end Rfc5280
end Std
end Verif
