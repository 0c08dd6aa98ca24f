import Verif.Spec.Built
import Verif.Std.Rfc2459

/-! What rfc2459.py implements, where that is not the standard (generated by tools/builtgen.py). -/

namespace Verif
namespace Built
namespace Rfc2459

open Asn1 Verif.Std Spec.X680 Spec.Built

/-- `Attribute ::=`, changed or supplied -/
def Attribute : Ty :=
  SEQUENCE [
    mandatory "type" Std.Rfc2459.AttributeType,
    mandatory "vals" (SET_OF Std.Rfc2459.AttributeValue)]

/-- `RelativeDistinguishedName ::=`, changed or supplied -/
def RelativeDistinguishedName : Ty :=
  SET_OF Std.Rfc2459.AttributeTypeAndValue

/-- `RDNSequence ::=` -/
def RDNSequence : Ty :=
  SEQUENCE_OF Built.Rfc2459.RelativeDistinguishedName

/-- `Name ::=`, changed or supplied -/
def Name : Ty :=
  CHOICE [
    mandatory "" Built.Rfc2459.RDNSequence]

/-- `DistinguishedName ::=` -/
def DistinguishedName : Ty :=
  Built.Rfc2459.RDNSequence

/-- `DirectoryString ::=`, changed or supplied -/
def DirectoryString : Ty :=
  CHOICE [
    mandatory "teletexString" (constrained (SIZE_MAX 1) TeletexString),
    mandatory "printableString" (constrained (SIZE_MAX 1) PrintableString),
    mandatory "universalString" (constrained (SIZE_MAX 1) UniversalString),
    mandatory "utf8String" (constrained (SIZE_MAX 1) UTF8String),
    mandatory "bmpString" (constrained (SIZE_MAX 1) BMPString),
    mandatory "ia5String" (constrained (SIZE_MAX 1) IA5String)]

/-- `TBSCertificate ::=` -/
def TBSCertificate : Ty :=
  SEQUENCE [
    default "version" (explicit .context 0 Std.Rfc2459.Version) (.int 0),
    mandatory "serialNumber" Std.Rfc2459.CertificateSerialNumber,
    mandatory "signature" Std.Rfc2459.AlgorithmIdentifier,
    mandatory "issuer" Built.Rfc2459.Name,
    mandatory "validity" Std.Rfc2459.Validity,
    mandatory "subject" Built.Rfc2459.Name,
    mandatory "subjectPublicKeyInfo" Std.Rfc2459.SubjectPublicKeyInfo,
    optional "issuerUniqueID" (implicit .context 1 Std.Rfc2459.UniqueIdentifier),
    optional "subjectUniqueID" (implicit .context 2 Std.Rfc2459.UniqueIdentifier),
    optional "extensions" (explicit .context 3 Std.Rfc2459.Extensions)]

/-- `Certificate ::=` -/
def Certificate : Ty :=
  SEQUENCE [
    mandatory "tbsCertificate" Built.Rfc2459.TBSCertificate,
    mandatory "signatureAlgorithm" Std.Rfc2459.AlgorithmIdentifier,
    mandatory "signatureValue" BIT_STRING]

/-- `TBSCertList ::=` -/
def TBSCertList : Ty :=
  SEQUENCE [
    optional "version" Std.Rfc2459.Version,
    mandatory "signature" Std.Rfc2459.AlgorithmIdentifier,
    mandatory "issuer" Built.Rfc2459.Name,
    mandatory "thisUpdate" Std.Rfc2459.Time,
    optional "nextUpdate" Std.Rfc2459.Time,
    optional "revokedCertificates" (SEQUENCE_OF (SEQUENCE [
      mandatory "userCertificate" Std.Rfc2459.CertificateSerialNumber,
      mandatory "revocationDate" Std.Rfc2459.Time,
      optional "crlEntryExtensions" Std.Rfc2459.Extensions])),
    optional "crlExtensions" (explicit .context 0 Std.Rfc2459.Extensions)]

/-- `CertificateList ::=` -/
def CertificateList : Ty :=
  SEQUENCE [
    mandatory "tbsCertList" Built.Rfc2459.TBSCertList,
    mandatory "signatureAlgorithm" Std.Rfc2459.AlgorithmIdentifier,
    mandatory "signature" BIT_STRING]

/-- `ExtensionAttribute ::=`, changed or supplied -/
def ExtensionAttribute : Ty :=
  SEQUENCE [
    mandatory "extension-attribute-type" (explicit .context 0 (constrained (SIZE 0 256) INTEGER)),
    mandatory "extension-attribute-value" (explicit .context 1 ANY)]

/-- `ExtensionAttributes ::=` -/
def ExtensionAttributes : Ty :=
  constrained (SIZE 1 256) (SET_OF Built.Rfc2459.ExtensionAttribute)

/-- `ORAddress ::=` -/
def ORAddress : Ty :=
  SEQUENCE [
    mandatory "built-in-standard-attributes" Std.Rfc2459.BuiltInStandardAttributes,
    optional "built-in-domain-defined-attributes" Std.Rfc2459.BuiltInDomainDefinedAttributes,
    optional "extension-attributes" Built.Rfc2459.ExtensionAttributes]

/-- `UnformattedPostalAddress ::=`, changed or supplied -/
def UnformattedPostalAddress : Ty :=
  SET [
    optional "printable-address" (SEQUENCE_OF (constrained (SIZE 1 6) (constrained (SIZE 1 30) PrintableString))),
    optional "teletex-string" (constrained (SIZE 1 180) TeletexString)]

/-- `PresentationAddress ::=`, changed or supplied -/
def PresentationAddress : Ty :=
  SEQUENCE [
    optional "pSelector" (explicit .context 0 OCTET_STRING),
    optional "sSelector" (explicit .context 1 OCTET_STRING),
    optional "tSelector" (explicit .context 2 OCTET_STRING),
    optional "nAddresses" (explicit .context 3 (constrained (SIZE_MAX 1) (SET_OF OCTET_STRING)))]

/-- `ExtendedNetworkAddress ::=` -/
def ExtendedNetworkAddress : Ty :=
  CHOICE [
    mandatory "e163-4-address" (SEQUENCE [
      mandatory "number" (explicit .context 0 (constrained (SIZE 1 15) NumericString)),
      optional "sub-address" (explicit .context 1 (constrained (SIZE 1 40) NumericString))]),
    mandatory "psap-address" (explicit .context 0 Built.Rfc2459.PresentationAddress)]

/-- `TerminalType ::=`, changed or supplied -/
def TerminalType : Ty :=
  constrained (SIZE 0 256) (named [("telex", 3), ("teletelex", 4), ("g3-facsimile", 5), ("g4-facsimile", 6), ("ia5-terminal", 7), ("videotex", 8)] INTEGER)

/-- `TeletexDomainDefinedAttribute ::=`, changed or supplied -/
def TeletexDomainDefinedAttribute : Ty :=
  SEQUENCE [
    mandatory "type" (constrained (SIZE 1 8) TeletexString),
    mandatory "value" TeletexString]

/-- `TeletexDomainDefinedAttributes ::=` -/
def TeletexDomainDefinedAttributes : Ty :=
  constrained (SIZE 1 4) (SEQUENCE_OF Built.Rfc2459.TeletexDomainDefinedAttribute)

/-- `DomainParameters ::=`, changed or supplied -/
def DomainParameters : Ty :=
  SEQUENCE [
    mandatory "p" INTEGER,
    mandatory "g" INTEGER,
    mandatory "q" INTEGER,
    mandatory "j" INTEGER,
    optional "validationParms" Std.Rfc2459.ValidationParms]

/-- `EDIPartyName ::=` -/
def EDIPartyName : Ty :=
  SEQUENCE [
    optional "nameAssigner" (implicit .context 0 Built.Rfc2459.DirectoryString),
    mandatory "partyName" (implicit .context 1 Built.Rfc2459.DirectoryString)]

/-- `GeneralName ::=` -/
def GeneralName : Ty :=
  CHOICE [
    mandatory "otherName" (implicit .context 0 Std.Rfc2459.AnotherName),
    mandatory "rfc822Name" (implicit .context 1 IA5String),
    mandatory "dNSName" (implicit .context 2 IA5String),
    mandatory "x400Address" (implicit .context 3 Built.Rfc2459.ORAddress),
    mandatory "directoryName" (implicit .context 4 Built.Rfc2459.Name),
    mandatory "ediPartyName" (implicit .context 5 Built.Rfc2459.EDIPartyName),
    mandatory "uniformResourceIdentifier" (implicit .context 6 IA5String),
    mandatory "iPAddress" (implicit .context 7 OCTET_STRING),
    mandatory "registeredID" (implicit .context 8 OBJECT_IDENTIFIER)]

/-- `GeneralNames ::=` -/
def GeneralNames : Ty :=
  constrained (SIZE_MAX 1) (SEQUENCE_OF Built.Rfc2459.GeneralName)

/-- `AuthorityKeyIdentifier ::=` -/
def AuthorityKeyIdentifier : Ty :=
  SEQUENCE [
    optional "keyIdentifier" (implicit .context 0 Std.Rfc2459.KeyIdentifier),
    optional "authorityCertIssuer" (implicit .context 1 Built.Rfc2459.GeneralNames),
    optional "authorityCertSerialNumber" (implicit .context 2 Std.Rfc2459.CertificateSerialNumber)]

/-- `SubjectAltName ::=` -/
def SubjectAltName : Ty :=
  Built.Rfc2459.GeneralNames

/-- `IssuerAltName ::=` -/
def IssuerAltName : Ty :=
  Built.Rfc2459.GeneralNames

/-- `SubjectDirectoryAttributes ::=` -/
def SubjectDirectoryAttributes : Ty :=
  constrained (SIZE_MAX 1) (SEQUENCE_OF Built.Rfc2459.Attribute)

/-- `GeneralSubtree ::=` -/
def GeneralSubtree : Ty :=
  SEQUENCE [
    mandatory "base" Built.Rfc2459.GeneralName,
    default "minimum" (implicit .context 0 Std.Rfc2459.BaseDistance) (.int 0),
    optional "maximum" (implicit .context 1 Std.Rfc2459.BaseDistance)]

/-- `GeneralSubtrees ::=` -/
def GeneralSubtrees : Ty :=
  constrained (SIZE_MAX 1) (SEQUENCE_OF Built.Rfc2459.GeneralSubtree)

/-- `NameConstraints ::=` -/
def NameConstraints : Ty :=
  SEQUENCE [
    optional "permittedSubtrees" (implicit .context 0 Built.Rfc2459.GeneralSubtrees),
    optional "excludedSubtrees" (implicit .context 1 Built.Rfc2459.GeneralSubtrees)]

/-- `SkipCerts ::=`, changed or supplied -/
def SkipCerts : Ty :=
  constrained (SIZE_MAX 0) INTEGER

/-- `PolicyConstraints ::=` -/
def PolicyConstraints : Ty :=
  SEQUENCE [
    optional "requireExplicitPolicy" (implicit .context 0 Built.Rfc2459.SkipCerts),
    optional "inhibitPolicyMapping" (implicit .context 1 Built.Rfc2459.SkipCerts)]

/-- `DistributionPointName ::=` -/
def DistributionPointName : Ty :=
  CHOICE [
    mandatory "fullName" (implicit .context 0 Built.Rfc2459.GeneralNames),
    mandatory "nameRelativeToCRLIssuer" (implicit .context 1 Built.Rfc2459.RelativeDistinguishedName)]

/-- `DistributionPoint ::=` -/
def DistributionPoint : Ty :=
  SEQUENCE [
    optional "distributionPoint" (implicit .context 0 Built.Rfc2459.DistributionPointName),
    optional "reasons" (implicit .context 1 Std.Rfc2459.ReasonFlags),
    optional "cRLIssuer" (implicit .context 2 Built.Rfc2459.GeneralNames)]

/-- `CRLDistPointsSyntax ::=` -/
def CRLDistPointsSyntax : Ty :=
  constrained (SIZE_MAX 1) (SEQUENCE_OF Built.Rfc2459.DistributionPoint)

/-- `AccessDescription ::=` -/
def AccessDescription : Ty :=
  SEQUENCE [
    mandatory "accessMethod" OBJECT_IDENTIFIER,
    mandatory "accessLocation" Built.Rfc2459.GeneralName]

/-- `AuthorityInfoAccessSyntax ::=` -/
def AuthorityInfoAccessSyntax : Ty :=
  constrained (SIZE_MAX 1) (SEQUENCE_OF Built.Rfc2459.AccessDescription)

/-- `CRLNumber ::=`, changed or supplied -/
def CRLNumber : Ty :=
  constrained (SIZE_MAX 0) INTEGER

/-- `IssuingDistributionPoint ::=`, changed or supplied -/
def IssuingDistributionPoint : Ty :=
  SEQUENCE [
    optional "distributionPoint" (implicit .context 0 Built.Rfc2459.DistributionPointName),
    mandatory "onlyContainsUserCerts" (implicit .context 1 BOOLEAN),
    mandatory "onlyContainsCACerts" (implicit .context 2 BOOLEAN),
    optional "onlySomeReasons" (implicit .context 3 Std.Rfc2459.ReasonFlags),
    mandatory "indirectCRL" (implicit .context 4 BOOLEAN)]

/-- `BaseCRLNumber ::=` -/
def BaseCRLNumber : Ty :=
  Built.Rfc2459.CRLNumber

/-- `CertificateIssuer ::=` -/
def CertificateIssuer : Ty :=
  Built.Rfc2459.GeneralNames

/-- `Package-UniversalString ::=`, changed or supplied -/
def Package_UniversalString : Ty :=
  UniversalString

/-- `Package-BMPString ::=`, changed or supplied -/
def Package_BMPString : Ty :=
  BMPString

/-- `Package-UTF8String ::=`, changed or supplied -/
def Package_UTF8String : Ty :=
  UTF8String

/-- `DSAPrivateKey ::=`, changed or supplied -/
def DSAPrivateKey : Ty :=
  SEQUENCE [
    mandatory "version" (named [("v1", 0)] INTEGER),
    mandatory "p" INTEGER,
    mandatory "q" INTEGER,
    mandatory "g" INTEGER,
    mandatory "public" INTEGER,
    mandatory "private" INTEGER]

/-- `E163-4-address ::=`, changed or supplied -/
def E163_4_address : Ty :=
  SEQUENCE [
    mandatory "number" (explicit .context 0 (constrained (SIZE 1 15) NumericString)),
    optional "sub-address" (explicit .context 1 (constrained (SIZE 1 40) NumericString))]

/-- `PolicyMapping ::=`, changed or supplied -/
def PolicyMapping : Ty :=
  SEQUENCE [
    mandatory "issuerDomainPolicy" Std.Rfc2459.CertPolicyId,
    mandatory "subjectDomainPolicy" Std.Rfc2459.CertPolicyId]

/-- `RevokedCertificate ::=`, changed or supplied -/
def RevokedCertificate : Ty :=
  SEQUENCE [
    mandatory "userCertificate" Std.Rfc2459.CertificateSerialNumber,
    mandatory "revocationDate" Std.Rfc2459.Time,
    optional "crlEntryExtensions" Std.Rfc2459.Extensions]

def description : Description :=
  ⟨Verif.Rfc2459.asModule,
   [⟨"rfc2459.UniversalString", Verif.Rfc2459.UniversalString, Built.Rfc2459.Package_UniversalString⟩,
    ⟨"rfc2459.BMPString", Verif.Rfc2459.BMPString, Built.Rfc2459.Package_BMPString⟩,
    ⟨"rfc2459.UTF8String", Verif.Rfc2459.UTF8String, Built.Rfc2459.Package_UTF8String⟩,
    ⟨"rfc2459.X520name", Verif.Rfc2459.X520name, Std.Rfc2459.X520name⟩,
    ⟨"rfc2459.X520CommonName", Verif.Rfc2459.X520CommonName, Std.Rfc2459.X520CommonName⟩,
    ⟨"rfc2459.X520LocalityName", Verif.Rfc2459.X520LocalityName, Std.Rfc2459.X520LocalityName⟩,
    ⟨"rfc2459.X520StateOrProvinceName", Verif.Rfc2459.X520StateOrProvinceName, Std.Rfc2459.X520StateOrProvinceName⟩,
    ⟨"rfc2459.X520OrganizationName", Verif.Rfc2459.X520OrganizationName, Std.Rfc2459.X520OrganizationName⟩,
    ⟨"rfc2459.X520OrganizationalUnitName", Verif.Rfc2459.X520OrganizationalUnitName, Std.Rfc2459.X520OrganizationalUnitName⟩,
    ⟨"rfc2459.X520Title", Verif.Rfc2459.X520Title, Std.Rfc2459.X520Title⟩,
    ⟨"rfc2459.X520dnQualifier", Verif.Rfc2459.X520dnQualifier, Std.Rfc2459.X520dnQualifier⟩,
    ⟨"rfc2459.X520countryName", Verif.Rfc2459.X520countryName, Std.Rfc2459.X520countryName⟩,
    ⟨"rfc2459.Pkcs9email", Verif.Rfc2459.Pkcs9email, Std.Rfc2459.Pkcs9email⟩,
    ⟨"rfc2459.DSAPrivateKey", Verif.Rfc2459.DSAPrivateKey, Built.Rfc2459.DSAPrivateKey⟩,
    ⟨"rfc2459.DirectoryString", Verif.Rfc2459.DirectoryString, Built.Rfc2459.DirectoryString⟩,
    ⟨"rfc2459.AlgorithmIdentifier", Verif.Rfc2459.AlgorithmIdentifier, Std.Rfc2459.AlgorithmIdentifier⟩,
    ⟨"rfc2459.Dss_Sig_Value", Verif.Rfc2459.Dss_Sig_Value, Std.Rfc2459.Dss_Sig_Value⟩,
    ⟨"rfc2459.ValidationParms", Verif.Rfc2459.ValidationParms, Std.Rfc2459.ValidationParms⟩,
    ⟨"rfc2459.DomainParameters", Verif.Rfc2459.DomainParameters, Built.Rfc2459.DomainParameters⟩,
    ⟨"rfc2459.Dss_Parms", Verif.Rfc2459.Dss_Parms, Std.Rfc2459.Dss_Parms⟩,
    ⟨"rfc2459.TeletexDomainDefinedAttribute", Verif.Rfc2459.TeletexDomainDefinedAttribute, Built.Rfc2459.TeletexDomainDefinedAttribute⟩,
    ⟨"rfc2459.TeletexDomainDefinedAttributes", Verif.Rfc2459.TeletexDomainDefinedAttributes, Built.Rfc2459.TeletexDomainDefinedAttributes⟩,
    ⟨"rfc2459.TerminalType", Verif.Rfc2459.TerminalType, Built.Rfc2459.TerminalType⟩,
    ⟨"rfc2459.PresentationAddress", Verif.Rfc2459.PresentationAddress, Built.Rfc2459.PresentationAddress⟩,
    ⟨"rfc2459.E163_4_address", Verif.Rfc2459.E163_4_address, Built.Rfc2459.E163_4_address⟩,
    ⟨"rfc2459.ExtendedNetworkAddress", Verif.Rfc2459.ExtendedNetworkAddress, Built.Rfc2459.ExtendedNetworkAddress⟩,
    ⟨"rfc2459.PDSParameter", Verif.Rfc2459.PDSParameter, Std.Rfc2459.PDSParameter⟩,
    ⟨"rfc2459.LocalPostalAttributes", Verif.Rfc2459.LocalPostalAttributes, Std.Rfc2459.LocalPostalAttributes⟩,
    ⟨"rfc2459.UniquePostalName", Verif.Rfc2459.UniquePostalName, Std.Rfc2459.UniquePostalName⟩,
    ⟨"rfc2459.PosteRestanteAddress", Verif.Rfc2459.PosteRestanteAddress, Std.Rfc2459.PosteRestanteAddress⟩,
    ⟨"rfc2459.PostOfficeBoxAddress", Verif.Rfc2459.PostOfficeBoxAddress, Std.Rfc2459.PostOfficeBoxAddress⟩,
    ⟨"rfc2459.StreetAddress", Verif.Rfc2459.StreetAddress, Std.Rfc2459.StreetAddress⟩,
    ⟨"rfc2459.UnformattedPostalAddress", Verif.Rfc2459.UnformattedPostalAddress, Built.Rfc2459.UnformattedPostalAddress⟩,
    ⟨"rfc2459.PhysicalDeliveryOfficeName", Verif.Rfc2459.PhysicalDeliveryOfficeName, Std.Rfc2459.PhysicalDeliveryOfficeName⟩,
    ⟨"rfc2459.PhysicalDeliveryOfficeNumber", Verif.Rfc2459.PhysicalDeliveryOfficeNumber, Std.Rfc2459.PhysicalDeliveryOfficeNumber⟩,
    ⟨"rfc2459.ExtensionORAddressComponents", Verif.Rfc2459.ExtensionORAddressComponents, Std.Rfc2459.ExtensionORAddressComponents⟩,
    ⟨"rfc2459.PhysicalDeliveryPersonalName", Verif.Rfc2459.PhysicalDeliveryPersonalName, Std.Rfc2459.PhysicalDeliveryPersonalName⟩,
    ⟨"rfc2459.PhysicalDeliveryOrganizationName", Verif.Rfc2459.PhysicalDeliveryOrganizationName, Std.Rfc2459.PhysicalDeliveryOrganizationName⟩,
    ⟨"rfc2459.ExtensionPhysicalDeliveryAddressComponents", Verif.Rfc2459.ExtensionPhysicalDeliveryAddressComponents, Std.Rfc2459.ExtensionPhysicalDeliveryAddressComponents⟩,
    ⟨"rfc2459.PostalCode", Verif.Rfc2459.PostalCode, Std.Rfc2459.PostalCode⟩,
    ⟨"rfc2459.PhysicalDeliveryCountryName", Verif.Rfc2459.PhysicalDeliveryCountryName, Std.Rfc2459.PhysicalDeliveryCountryName⟩,
    ⟨"rfc2459.PDSName", Verif.Rfc2459.PDSName, Std.Rfc2459.PDSName⟩,
    ⟨"rfc2459.TeletexOrganizationalUnitName", Verif.Rfc2459.TeletexOrganizationalUnitName, Std.Rfc2459.TeletexOrganizationalUnitName⟩,
    ⟨"rfc2459.TeletexOrganizationalUnitNames", Verif.Rfc2459.TeletexOrganizationalUnitNames, Std.Rfc2459.TeletexOrganizationalUnitNames⟩,
    ⟨"rfc2459.TeletexPersonalName", Verif.Rfc2459.TeletexPersonalName, Std.Rfc2459.TeletexPersonalName⟩,
    ⟨"rfc2459.TeletexOrganizationName", Verif.Rfc2459.TeletexOrganizationName, Std.Rfc2459.TeletexOrganizationName⟩,
    ⟨"rfc2459.TeletexCommonName", Verif.Rfc2459.TeletexCommonName, Std.Rfc2459.TeletexCommonName⟩,
    ⟨"rfc2459.CommonName", Verif.Rfc2459.CommonName, Std.Rfc2459.CommonName⟩,
    ⟨"rfc2459.ExtensionAttribute", Verif.Rfc2459.ExtensionAttribute, Built.Rfc2459.ExtensionAttribute⟩,
    ⟨"rfc2459.ExtensionAttributes", Verif.Rfc2459.ExtensionAttributes, Built.Rfc2459.ExtensionAttributes⟩,
    ⟨"rfc2459.BuiltInDomainDefinedAttribute", Verif.Rfc2459.BuiltInDomainDefinedAttribute, Std.Rfc2459.BuiltInDomainDefinedAttribute⟩,
    ⟨"rfc2459.BuiltInDomainDefinedAttributes", Verif.Rfc2459.BuiltInDomainDefinedAttributes, Std.Rfc2459.BuiltInDomainDefinedAttributes⟩,
    ⟨"rfc2459.OrganizationalUnitName", Verif.Rfc2459.OrganizationalUnitName, Std.Rfc2459.OrganizationalUnitName⟩,
    ⟨"rfc2459.OrganizationalUnitNames", Verif.Rfc2459.OrganizationalUnitNames, Std.Rfc2459.OrganizationalUnitNames⟩,
    ⟨"rfc2459.PersonalName", Verif.Rfc2459.PersonalName, Std.Rfc2459.PersonalName⟩,
    ⟨"rfc2459.NumericUserIdentifier", Verif.Rfc2459.NumericUserIdentifier, Std.Rfc2459.NumericUserIdentifier⟩,
    ⟨"rfc2459.OrganizationName", Verif.Rfc2459.OrganizationName, Std.Rfc2459.OrganizationName⟩,
    ⟨"rfc2459.PrivateDomainName", Verif.Rfc2459.PrivateDomainName, Std.Rfc2459.PrivateDomainName⟩,
    ⟨"rfc2459.TerminalIdentifier", Verif.Rfc2459.TerminalIdentifier, Std.Rfc2459.TerminalIdentifier⟩,
    ⟨"rfc2459.X121Address", Verif.Rfc2459.X121Address, Std.Rfc2459.X121Address⟩,
    ⟨"rfc2459.NetworkAddress", Verif.Rfc2459.NetworkAddress, Std.Rfc2459.NetworkAddress⟩,
    ⟨"rfc2459.AdministrationDomainName", Verif.Rfc2459.AdministrationDomainName, Std.Rfc2459.AdministrationDomainName⟩,
    ⟨"rfc2459.CountryName", Verif.Rfc2459.CountryName, Std.Rfc2459.CountryName⟩,
    ⟨"rfc2459.BuiltInStandardAttributes", Verif.Rfc2459.BuiltInStandardAttributes, Std.Rfc2459.BuiltInStandardAttributes⟩,
    ⟨"rfc2459.ORAddress", Verif.Rfc2459.ORAddress, Built.Rfc2459.ORAddress⟩,
    ⟨"rfc2459.InvalidityDate", Verif.Rfc2459.InvalidityDate, Std.Rfc2459.InvalidityDate⟩,
    ⟨"rfc2459.HoldInstructionCode", Verif.Rfc2459.HoldInstructionCode, Std.Rfc2459.HoldInstructionCode⟩,
    ⟨"rfc2459.CRLReason", Verif.Rfc2459.CRLReason, Std.Rfc2459.CRLReason⟩,
    ⟨"rfc2459.CRLNumber", Verif.Rfc2459.CRLNumber, Built.Rfc2459.CRLNumber⟩,
    ⟨"rfc2459.BaseCRLNumber", Verif.Rfc2459.BaseCRLNumber, Built.Rfc2459.BaseCRLNumber⟩,
    ⟨"rfc2459.KeyPurposeId", Verif.Rfc2459.KeyPurposeId, Std.Rfc2459.KeyPurposeId⟩,
    ⟨"rfc2459.ExtKeyUsageSyntax", Verif.Rfc2459.ExtKeyUsageSyntax, Std.Rfc2459.ExtKeyUsageSyntax⟩,
    ⟨"rfc2459.ReasonFlags", Verif.Rfc2459.ReasonFlags, Std.Rfc2459.ReasonFlags⟩,
    ⟨"rfc2459.SkipCerts", Verif.Rfc2459.SkipCerts, Built.Rfc2459.SkipCerts⟩,
    ⟨"rfc2459.PolicyConstraints", Verif.Rfc2459.PolicyConstraints, Built.Rfc2459.PolicyConstraints⟩,
    ⟨"rfc2459.BasicConstraints", Verif.Rfc2459.BasicConstraints, Std.Rfc2459.BasicConstraints⟩,
    ⟨"rfc2459.EDIPartyName", Verif.Rfc2459.EDIPartyName, Built.Rfc2459.EDIPartyName⟩,
    ⟨"rfc2459.BaseDistance", Verif.Rfc2459.BaseDistance, Std.Rfc2459.BaseDistance⟩,
    ⟨"rfc2459.DisplayText", Verif.Rfc2459.DisplayText, Std.Rfc2459.DisplayText⟩,
    ⟨"rfc2459.NoticeReference", Verif.Rfc2459.NoticeReference, Std.Rfc2459.NoticeReference⟩,
    ⟨"rfc2459.UserNotice", Verif.Rfc2459.UserNotice, Std.Rfc2459.UserNotice⟩,
    ⟨"rfc2459.CPSuri", Verif.Rfc2459.CPSuri, Std.Rfc2459.CPSuri⟩,
    ⟨"rfc2459.PolicyQualifierId", Verif.Rfc2459.PolicyQualifierId, Std.Rfc2459.PolicyQualifierId⟩,
    ⟨"rfc2459.CertPolicyId", Verif.Rfc2459.CertPolicyId, Std.Rfc2459.CertPolicyId⟩,
    ⟨"rfc2459.PolicyQualifierInfo", Verif.Rfc2459.PolicyQualifierInfo, Std.Rfc2459.PolicyQualifierInfo⟩,
    ⟨"rfc2459.PolicyInformation", Verif.Rfc2459.PolicyInformation, Std.Rfc2459.PolicyInformation⟩,
    ⟨"rfc2459.CertificatePolicies", Verif.Rfc2459.CertificatePolicies, Std.Rfc2459.CertificatePolicies⟩,
    ⟨"rfc2459.PolicyMapping", Verif.Rfc2459.PolicyMapping, Built.Rfc2459.PolicyMapping⟩,
    ⟨"rfc2459.PolicyMappings", Verif.Rfc2459.PolicyMappings, Std.Rfc2459.PolicyMappings⟩,
    ⟨"rfc2459.PrivateKeyUsagePeriod", Verif.Rfc2459.PrivateKeyUsagePeriod, Std.Rfc2459.PrivateKeyUsagePeriod⟩,
    ⟨"rfc2459.KeyUsage", Verif.Rfc2459.KeyUsage, Std.Rfc2459.KeyUsage⟩,
    ⟨"rfc2459.KeyIdentifier", Verif.Rfc2459.KeyIdentifier, Std.Rfc2459.KeyIdentifier⟩,
    ⟨"rfc2459.SubjectKeyIdentifier", Verif.Rfc2459.SubjectKeyIdentifier, Std.Rfc2459.SubjectKeyIdentifier⟩,
    ⟨"rfc2459.AttributeValue", Verif.Rfc2459.AttributeValue, Std.Rfc2459.AttributeValue⟩,
    ⟨"rfc2459.AttributeType", Verif.Rfc2459.AttributeType, Std.Rfc2459.AttributeType⟩,
    ⟨"rfc2459.AttributeTypeAndValue", Verif.Rfc2459.AttributeTypeAndValue, Std.Rfc2459.AttributeTypeAndValue⟩,
    ⟨"rfc2459.Attribute", Verif.Rfc2459.Attribute, Built.Rfc2459.Attribute⟩,
    ⟨"rfc2459.SubjectDirectoryAttributes", Verif.Rfc2459.SubjectDirectoryAttributes, Built.Rfc2459.SubjectDirectoryAttributes⟩,
    ⟨"rfc2459.RelativeDistinguishedName", Verif.Rfc2459.RelativeDistinguishedName, Built.Rfc2459.RelativeDistinguishedName⟩,
    ⟨"rfc2459.RDNSequence", Verif.Rfc2459.RDNSequence, Built.Rfc2459.RDNSequence⟩,
    ⟨"rfc2459.Name", Verif.Rfc2459.Name, Built.Rfc2459.Name⟩,
    ⟨"rfc2459.CertificateSerialNumber", Verif.Rfc2459.CertificateSerialNumber, Std.Rfc2459.CertificateSerialNumber⟩,
    ⟨"rfc2459.AnotherName", Verif.Rfc2459.AnotherName, Std.Rfc2459.AnotherName⟩,
    ⟨"rfc2459.GeneralName", Verif.Rfc2459.GeneralName, Built.Rfc2459.GeneralName⟩,
    ⟨"rfc2459.GeneralNames", Verif.Rfc2459.GeneralNames, Built.Rfc2459.GeneralNames⟩,
    ⟨"rfc2459.AccessDescription", Verif.Rfc2459.AccessDescription, Built.Rfc2459.AccessDescription⟩,
    ⟨"rfc2459.AuthorityInfoAccessSyntax", Verif.Rfc2459.AuthorityInfoAccessSyntax, Built.Rfc2459.AuthorityInfoAccessSyntax⟩,
    ⟨"rfc2459.AuthorityKeyIdentifier", Verif.Rfc2459.AuthorityKeyIdentifier, Built.Rfc2459.AuthorityKeyIdentifier⟩,
    ⟨"rfc2459.DistributionPointName", Verif.Rfc2459.DistributionPointName, Built.Rfc2459.DistributionPointName⟩,
    ⟨"rfc2459.DistributionPoint", Verif.Rfc2459.DistributionPoint, Built.Rfc2459.DistributionPoint⟩,
    ⟨"rfc2459.CRLDistPointsSyntax", Verif.Rfc2459.CRLDistPointsSyntax, Built.Rfc2459.CRLDistPointsSyntax⟩,
    ⟨"rfc2459.IssuingDistributionPoint", Verif.Rfc2459.IssuingDistributionPoint, Built.Rfc2459.IssuingDistributionPoint⟩,
    ⟨"rfc2459.GeneralSubtree", Verif.Rfc2459.GeneralSubtree, Built.Rfc2459.GeneralSubtree⟩,
    ⟨"rfc2459.GeneralSubtrees", Verif.Rfc2459.GeneralSubtrees, Built.Rfc2459.GeneralSubtrees⟩,
    ⟨"rfc2459.NameConstraints", Verif.Rfc2459.NameConstraints, Built.Rfc2459.NameConstraints⟩,
    ⟨"rfc2459.CertificateIssuer", Verif.Rfc2459.CertificateIssuer, Built.Rfc2459.CertificateIssuer⟩,
    ⟨"rfc2459.SubjectAltName", Verif.Rfc2459.SubjectAltName, Built.Rfc2459.SubjectAltName⟩,
    ⟨"rfc2459.IssuerAltName", Verif.Rfc2459.IssuerAltName, Built.Rfc2459.IssuerAltName⟩,
    ⟨"rfc2459.Extension", Verif.Rfc2459.Extension, Std.Rfc2459.Extension⟩,
    ⟨"rfc2459.Extensions", Verif.Rfc2459.Extensions, Std.Rfc2459.Extensions⟩,
    ⟨"rfc2459.SubjectPublicKeyInfo", Verif.Rfc2459.SubjectPublicKeyInfo, Std.Rfc2459.SubjectPublicKeyInfo⟩,
    ⟨"rfc2459.UniqueIdentifier", Verif.Rfc2459.UniqueIdentifier, Std.Rfc2459.UniqueIdentifier⟩,
    ⟨"rfc2459.Time", Verif.Rfc2459.Time, Std.Rfc2459.Time⟩,
    ⟨"rfc2459.Validity", Verif.Rfc2459.Validity, Std.Rfc2459.Validity⟩,
    ⟨"rfc2459.Version", Verif.Rfc2459.Version, Std.Rfc2459.Version⟩,
    ⟨"rfc2459.TBSCertificate", Verif.Rfc2459.TBSCertificate, Built.Rfc2459.TBSCertificate⟩,
    ⟨"rfc2459.Certificate", Verif.Rfc2459.Certificate, Built.Rfc2459.Certificate⟩,
    ⟨"rfc2459.RevokedCertificate", Verif.Rfc2459.RevokedCertificate, Built.Rfc2459.RevokedCertificate⟩,
    ⟨"rfc2459.TBSCertList", Verif.Rfc2459.TBSCertList, Built.Rfc2459.TBSCertList⟩,
    ⟨"rfc2459.CertificateList", Verif.Rfc2459.CertificateList, Built.Rfc2459.CertificateList⟩]⟩

end Rfc2459
end Built
end Verif
