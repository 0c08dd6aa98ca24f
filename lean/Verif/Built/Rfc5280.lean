import Verif.Spec.Built
import Verif.Std.Rfc5280

/-! What rfc5280.py implements, where that is not the standard (generated by tools/builtgen.py). -/

namespace Verif
namespace Built
namespace Rfc5280

open Asn1 Verif.Std Spec.X680 Spec.Built

/-- `UnformattedPostalAddress ::=`, changed or supplied -/
def UnformattedPostalAddress : Ty :=
  SET [
    optional "printable-address" (SEQUENCE_OF (constrained (SIZE 1 30) PrintableString)),
    optional "teletex-string" (constrained (SIZE 1 180) TeletexString)]

/-- `PresentationAddress ::=`, changed or supplied -/
def PresentationAddress : Ty :=
  SEQUENCE [
    optional "pSelector" (explicit .context 0 OCTET_STRING),
    optional "sSelector" (explicit .context 1 OCTET_STRING),
    optional "tSelector" (explicit .context 2 OCTET_STRING),
    mandatory "nAddresses" (explicit .context 3 (SET_OF OCTET_STRING))]

/-- `ExtendedNetworkAddress ::=` -/
def ExtendedNetworkAddress : Ty :=
  CHOICE [
    mandatory "e163-4-address" (SEQUENCE [
      mandatory "number" (implicit .context 0 (constrained (SIZE 1 15) NumericString)),
      optional "sub-address" (implicit .context 1 (constrained (SIZE 1 40) NumericString))]),
    mandatory "psap-address" (implicit .context 0 Built.Rfc5280.PresentationAddress)]

/-- `TerminalType ::=`, changed or supplied -/
def TerminalType : Ty :=
  named [("telex", 3), ("teletex", 4), ("g3-facsimile", 5), ("g4-facsimile", 6), ("ia5-terminal", 7), ("videotex", 8)] INTEGER

/-- `PolicyQualifierId ::=`, changed or supplied -/
def PolicyQualifierId : Ty :=
  OBJECT_IDENTIFIER

/-- `PolicyQualifierInfo ::=` -/
def PolicyQualifierInfo : Ty :=
  SEQUENCE [
    mandatory "policyQualifierId" Built.Rfc5280.PolicyQualifierId,
    mandatory "qualifier" ANY]

/-- `PolicyInformation ::=`, changed or supplied -/
def PolicyInformation : Ty :=
  SEQUENCE [
    mandatory "policyIdentifier" Std.Rfc5280.CertPolicyId,
    optional "policyQualifiers" (SEQUENCE_OF Built.Rfc5280.PolicyQualifierInfo)]

/-- `CertificatePolicies ::=` -/
def CertificatePolicies : Ty :=
  constrained (SIZE_MAX 1) (SEQUENCE_OF Built.Rfc5280.PolicyInformation)

def description : Description :=
  ⟨Verif.Rfc5280.asModule,
   [⟨"rfc5280.TerminalType", Verif.Rfc5280.TerminalType, Built.Rfc5280.TerminalType⟩,
    ⟨"rfc5280.Extension", Verif.Rfc5280.Extension, Std.Rfc5280.Extension⟩,
    ⟨"rfc5280.Extensions", Verif.Rfc5280.Extensions, Std.Rfc5280.Extensions⟩,
    ⟨"rfc5280.UnformattedPostalAddress", Verif.Rfc5280.UnformattedPostalAddress, Built.Rfc5280.UnformattedPostalAddress⟩,
    ⟨"rfc5280.X520OrganizationName", Verif.Rfc5280.X520OrganizationName, Std.Rfc5280.X520OrganizationName⟩,
    ⟨"rfc5280.PostalCode", Verif.Rfc5280.PostalCode, Std.Rfc5280.PostalCode⟩,
    ⟨"rfc5280.DomainComponent", Verif.Rfc5280.DomainComponent, Std.Rfc5280.DomainComponent⟩,
    ⟨"rfc5280.AttributeType", Verif.Rfc5280.AttributeType, Std.Rfc5280.AttributeType⟩,
    ⟨"rfc5280.PDSParameter", Verif.Rfc5280.PDSParameter, Std.Rfc5280.PDSParameter⟩,
    ⟨"rfc5280.PhysicalDeliveryPersonalName", Verif.Rfc5280.PhysicalDeliveryPersonalName, Std.Rfc5280.PhysicalDeliveryPersonalName⟩,
    ⟨"rfc5280.TeletexDomainDefinedAttribute", Verif.Rfc5280.TeletexDomainDefinedAttribute, Std.Rfc5280.TeletexDomainDefinedAttribute⟩,
    ⟨"rfc5280.TeletexDomainDefinedAttributes", Verif.Rfc5280.TeletexDomainDefinedAttributes, Std.Rfc5280.TeletexDomainDefinedAttributes⟩,
    ⟨"rfc5280.X520LocalityName", Verif.Rfc5280.X520LocalityName, Std.Rfc5280.X520LocalityName⟩,
    ⟨"rfc5280.PersonalName", Verif.Rfc5280.PersonalName, Std.Rfc5280.PersonalName⟩,
    ⟨"rfc5280.OrganizationalUnitName", Verif.Rfc5280.OrganizationalUnitName, Std.Rfc5280.OrganizationalUnitName⟩,
    ⟨"rfc5280.Version", Verif.Rfc5280.Version, Std.Rfc5280.Version⟩,
    ⟨"rfc5280.CertificateSerialNumber", Verif.Rfc5280.CertificateSerialNumber, Std.Rfc5280.CertificateSerialNumber⟩,
    ⟨"rfc5280.AlgorithmIdentifier", Verif.Rfc5280.AlgorithmIdentifier, Std.Rfc5280.AlgorithmIdentifier⟩,
    ⟨"rfc5280.Time", Verif.Rfc5280.Time, Std.Rfc5280.Time⟩,
    ⟨"rfc5280.AttributeValue", Verif.Rfc5280.AttributeValue, Std.Rfc5280.AttributeValue⟩,
    ⟨"rfc5280.AttributeTypeAndValue", Verif.Rfc5280.AttributeTypeAndValue, Std.Rfc5280.AttributeTypeAndValue⟩,
    ⟨"rfc5280.RelativeDistinguishedName", Verif.Rfc5280.RelativeDistinguishedName, Std.Rfc5280.RelativeDistinguishedName⟩,
    ⟨"rfc5280.RDNSequence", Verif.Rfc5280.RDNSequence, Std.Rfc5280.RDNSequence⟩,
    ⟨"rfc5280.Name", Verif.Rfc5280.Name, Std.Rfc5280.Name⟩,
    ⟨"rfc5280.TBSCertList", Verif.Rfc5280.TBSCertList, Std.Rfc5280.TBSCertList⟩,
    ⟨"rfc5280.CertificateList", Verif.Rfc5280.CertificateList, Std.Rfc5280.CertificateList⟩,
    ⟨"rfc5280.PhysicalDeliveryOfficeName", Verif.Rfc5280.PhysicalDeliveryOfficeName, Std.Rfc5280.PhysicalDeliveryOfficeName⟩,
    ⟨"rfc5280.ExtensionAttribute", Verif.Rfc5280.ExtensionAttribute, Std.Rfc5280.ExtensionAttribute⟩,
    ⟨"rfc5280.X520dnQualifier", Verif.Rfc5280.X520dnQualifier, Std.Rfc5280.X520dnQualifier⟩,
    ⟨"rfc5280.PosteRestanteAddress", Verif.Rfc5280.PosteRestanteAddress, Std.Rfc5280.PosteRestanteAddress⟩,
    ⟨"rfc5280.UniqueIdentifier", Verif.Rfc5280.UniqueIdentifier, Std.Rfc5280.UniqueIdentifier⟩,
    ⟨"rfc5280.Validity", Verif.Rfc5280.Validity, Std.Rfc5280.Validity⟩,
    ⟨"rfc5280.SubjectPublicKeyInfo", Verif.Rfc5280.SubjectPublicKeyInfo, Std.Rfc5280.SubjectPublicKeyInfo⟩,
    ⟨"rfc5280.TBSCertificate", Verif.Rfc5280.TBSCertificate, Std.Rfc5280.TBSCertificate⟩,
    ⟨"rfc5280.X520name", Verif.Rfc5280.X520name, Std.Rfc5280.X520name⟩,
    ⟨"rfc5280.X121Address", Verif.Rfc5280.X121Address, Std.Rfc5280.X121Address⟩,
    ⟨"rfc5280.NetworkAddress", Verif.Rfc5280.NetworkAddress, Std.Rfc5280.NetworkAddress⟩,
    ⟨"rfc5280.PhysicalDeliveryCountryName", Verif.Rfc5280.PhysicalDeliveryCountryName, Std.Rfc5280.PhysicalDeliveryCountryName⟩,
    ⟨"rfc5280.X520Pseudonym", Verif.Rfc5280.X520Pseudonym, Std.Rfc5280.X520Pseudonym⟩,
    ⟨"rfc5280.AdministrationDomainName", Verif.Rfc5280.AdministrationDomainName, Std.Rfc5280.AdministrationDomainName⟩,
    ⟨"rfc5280.PresentationAddress", Verif.Rfc5280.PresentationAddress, Built.Rfc5280.PresentationAddress⟩,
    ⟨"rfc5280.ExtendedNetworkAddress", Verif.Rfc5280.ExtendedNetworkAddress, Built.Rfc5280.ExtendedNetworkAddress⟩,
    ⟨"rfc5280.TeletexOrganizationName", Verif.Rfc5280.TeletexOrganizationName, Std.Rfc5280.TeletexOrganizationName⟩,
    ⟨"rfc5280.TerminalIdentifier", Verif.Rfc5280.TerminalIdentifier, Std.Rfc5280.TerminalIdentifier⟩,
    ⟨"rfc5280.StreetAddress", Verif.Rfc5280.StreetAddress, Std.Rfc5280.StreetAddress⟩,
    ⟨"rfc5280.ExtensionAttributes", Verif.Rfc5280.ExtensionAttributes, Std.Rfc5280.ExtensionAttributes⟩,
    ⟨"rfc5280.ExtensionORAddressComponents", Verif.Rfc5280.ExtensionORAddressComponents, Std.Rfc5280.ExtensionORAddressComponents⟩,
    ⟨"rfc5280.X520OrganizationalUnitName", Verif.Rfc5280.X520OrganizationalUnitName, Std.Rfc5280.X520OrganizationalUnitName⟩,
    ⟨"rfc5280.LocalPostalAttributes", Verif.Rfc5280.LocalPostalAttributes, Std.Rfc5280.LocalPostalAttributes⟩,
    ⟨"rfc5280.X520Title", Verif.Rfc5280.X520Title, Std.Rfc5280.X520Title⟩,
    ⟨"rfc5280.X520StateOrProvinceName", Verif.Rfc5280.X520StateOrProvinceName, Std.Rfc5280.X520StateOrProvinceName⟩,
    ⟨"rfc5280.X520countryName", Verif.Rfc5280.X520countryName, Std.Rfc5280.X520countryName⟩,
    ⟨"rfc5280.X520SerialNumber", Verif.Rfc5280.X520SerialNumber, Std.Rfc5280.X520SerialNumber⟩,
    ⟨"rfc5280.Attribute", Verif.Rfc5280.Attribute, Std.Rfc5280.Attribute⟩,
    ⟨"rfc5280.ExtensionPhysicalDeliveryAddressComponents", Verif.Rfc5280.ExtensionPhysicalDeliveryAddressComponents, Std.Rfc5280.ExtensionPhysicalDeliveryAddressComponents⟩,
    ⟨"rfc5280.EmailAddress", Verif.Rfc5280.EmailAddress, Std.Rfc5280.EmailAddress⟩,
    ⟨"rfc5280.BuiltInDomainDefinedAttribute", Verif.Rfc5280.BuiltInDomainDefinedAttribute, Std.Rfc5280.BuiltInDomainDefinedAttribute⟩,
    ⟨"rfc5280.BuiltInDomainDefinedAttributes", Verif.Rfc5280.BuiltInDomainDefinedAttributes, Std.Rfc5280.BuiltInDomainDefinedAttributes⟩,
    ⟨"rfc5280.X520CommonName", Verif.Rfc5280.X520CommonName, Std.Rfc5280.X520CommonName⟩,
    ⟨"rfc5280.TeletexCommonName", Verif.Rfc5280.TeletexCommonName, Std.Rfc5280.TeletexCommonName⟩,
    ⟨"rfc5280.PhysicalDeliveryOrganizationName", Verif.Rfc5280.PhysicalDeliveryOrganizationName, Std.Rfc5280.PhysicalDeliveryOrganizationName⟩,
    ⟨"rfc5280.NumericUserIdentifier", Verif.Rfc5280.NumericUserIdentifier, Std.Rfc5280.NumericUserIdentifier⟩,
    ⟨"rfc5280.CountryName", Verif.Rfc5280.CountryName, Std.Rfc5280.CountryName⟩,
    ⟨"rfc5280.OrganizationName", Verif.Rfc5280.OrganizationName, Std.Rfc5280.OrganizationName⟩,
    ⟨"rfc5280.OrganizationalUnitNames", Verif.Rfc5280.OrganizationalUnitNames, Std.Rfc5280.OrganizationalUnitNames⟩,
    ⟨"rfc5280.PrivateDomainName", Verif.Rfc5280.PrivateDomainName, Std.Rfc5280.PrivateDomainName⟩,
    ⟨"rfc5280.BuiltInStandardAttributes", Verif.Rfc5280.BuiltInStandardAttributes, Std.Rfc5280.BuiltInStandardAttributes⟩,
    ⟨"rfc5280.ORAddress", Verif.Rfc5280.ORAddress, Std.Rfc5280.ORAddress⟩,
    ⟨"rfc5280.DistinguishedName", Verif.Rfc5280.DistinguishedName, Std.Rfc5280.DistinguishedName⟩,
    ⟨"rfc5280.PhysicalDeliveryOfficeNumber", Verif.Rfc5280.PhysicalDeliveryOfficeNumber, Std.Rfc5280.PhysicalDeliveryOfficeNumber⟩,
    ⟨"rfc5280.UniquePostalName", Verif.Rfc5280.UniquePostalName, Std.Rfc5280.UniquePostalName⟩,
    ⟨"rfc5280.PDSName", Verif.Rfc5280.PDSName, Std.Rfc5280.PDSName⟩,
    ⟨"rfc5280.TeletexPersonalName", Verif.Rfc5280.TeletexPersonalName, Std.Rfc5280.TeletexPersonalName⟩,
    ⟨"rfc5280.PostOfficeBoxAddress", Verif.Rfc5280.PostOfficeBoxAddress, Std.Rfc5280.PostOfficeBoxAddress⟩,
    ⟨"rfc5280.DirectoryString", Verif.Rfc5280.DirectoryString, Std.Rfc5280.DirectoryString⟩,
    ⟨"rfc5280.CommonName", Verif.Rfc5280.CommonName, Std.Rfc5280.CommonName⟩,
    ⟨"rfc5280.Certificate", Verif.Rfc5280.Certificate, Std.Rfc5280.Certificate⟩,
    ⟨"rfc5280.TeletexOrganizationalUnitName", Verif.Rfc5280.TeletexOrganizationalUnitName, Std.Rfc5280.TeletexOrganizationalUnitName⟩,
    ⟨"rfc5280.TeletexOrganizationalUnitNames", Verif.Rfc5280.TeletexOrganizationalUnitNames, Std.Rfc5280.TeletexOrganizationalUnitNames⟩,
    ⟨"rfc5280.SkipCerts", Verif.Rfc5280.SkipCerts, Std.Rfc5280.SkipCerts⟩,
    ⟨"rfc5280.CRLReason", Verif.Rfc5280.CRLReason, Std.Rfc5280.CRLReason⟩,
    ⟨"rfc5280.PrivateKeyUsagePeriod", Verif.Rfc5280.PrivateKeyUsagePeriod, Std.Rfc5280.PrivateKeyUsagePeriod⟩,
    ⟨"rfc5280.AnotherName", Verif.Rfc5280.AnotherName, Std.Rfc5280.AnotherName⟩,
    ⟨"rfc5280.EDIPartyName", Verif.Rfc5280.EDIPartyName, Std.Rfc5280.EDIPartyName⟩,
    ⟨"rfc5280.GeneralName", Verif.Rfc5280.GeneralName, Std.Rfc5280.GeneralName⟩,
    ⟨"rfc5280.BaseDistance", Verif.Rfc5280.BaseDistance, Std.Rfc5280.BaseDistance⟩,
    ⟨"rfc5280.GeneralSubtree", Verif.Rfc5280.GeneralSubtree, Std.Rfc5280.GeneralSubtree⟩,
    ⟨"rfc5280.GeneralNames", Verif.Rfc5280.GeneralNames, Std.Rfc5280.GeneralNames⟩,
    ⟨"rfc5280.DistributionPointName", Verif.Rfc5280.DistributionPointName, Std.Rfc5280.DistributionPointName⟩,
    ⟨"rfc5280.ReasonFlags", Verif.Rfc5280.ReasonFlags, Std.Rfc5280.ReasonFlags⟩,
    ⟨"rfc5280.IssuingDistributionPoint", Verif.Rfc5280.IssuingDistributionPoint, Std.Rfc5280.IssuingDistributionPoint⟩,
    ⟨"rfc5280.AccessDescription", Verif.Rfc5280.AccessDescription, Std.Rfc5280.AccessDescription⟩,
    ⟨"rfc5280.IssuerAltName", Verif.Rfc5280.IssuerAltName, Std.Rfc5280.IssuerAltName⟩,
    ⟨"rfc5280.DistributionPoint", Verif.Rfc5280.DistributionPoint, Std.Rfc5280.DistributionPoint⟩,
    ⟨"rfc5280.CRLDistributionPoints", Verif.Rfc5280.CRLDistributionPoints, Std.Rfc5280.CRLDistributionPoints⟩,
    ⟨"rfc5280.GeneralSubtrees", Verif.Rfc5280.GeneralSubtrees, Std.Rfc5280.GeneralSubtrees⟩,
    ⟨"rfc5280.NameConstraints", Verif.Rfc5280.NameConstraints, Std.Rfc5280.NameConstraints⟩,
    ⟨"rfc5280.SubjectDirectoryAttributes", Verif.Rfc5280.SubjectDirectoryAttributes, Std.Rfc5280.SubjectDirectoryAttributes⟩,
    ⟨"rfc5280.DisplayText", Verif.Rfc5280.DisplayText, Std.Rfc5280.DisplayText⟩,
    ⟨"rfc5280.NoticeReference", Verif.Rfc5280.NoticeReference, Std.Rfc5280.NoticeReference⟩,
    ⟨"rfc5280.UserNotice", Verif.Rfc5280.UserNotice, Std.Rfc5280.UserNotice⟩,
    ⟨"rfc5280.PolicyQualifierId", Verif.Rfc5280.PolicyQualifierId, Built.Rfc5280.PolicyQualifierId⟩,
    ⟨"rfc5280.PolicyQualifierInfo", Verif.Rfc5280.PolicyQualifierInfo, Built.Rfc5280.PolicyQualifierInfo⟩,
    ⟨"rfc5280.CertPolicyId", Verif.Rfc5280.CertPolicyId, Std.Rfc5280.CertPolicyId⟩,
    ⟨"rfc5280.PolicyInformation", Verif.Rfc5280.PolicyInformation, Built.Rfc5280.PolicyInformation⟩,
    ⟨"rfc5280.CertificatePolicies", Verif.Rfc5280.CertificatePolicies, Built.Rfc5280.CertificatePolicies⟩,
    ⟨"rfc5280.SubjectAltName", Verif.Rfc5280.SubjectAltName, Std.Rfc5280.SubjectAltName⟩,
    ⟨"rfc5280.BasicConstraints", Verif.Rfc5280.BasicConstraints, Std.Rfc5280.BasicConstraints⟩,
    ⟨"rfc5280.PolicyMappings", Verif.Rfc5280.PolicyMappings, Std.Rfc5280.PolicyMappings⟩,
    ⟨"rfc5280.InhibitAnyPolicy", Verif.Rfc5280.InhibitAnyPolicy, Std.Rfc5280.InhibitAnyPolicy⟩,
    ⟨"rfc5280.CRLNumber", Verif.Rfc5280.CRLNumber, Std.Rfc5280.CRLNumber⟩,
    ⟨"rfc5280.BaseCRLNumber", Verif.Rfc5280.BaseCRLNumber, Std.Rfc5280.BaseCRLNumber⟩,
    ⟨"rfc5280.KeyIdentifier", Verif.Rfc5280.KeyIdentifier, Std.Rfc5280.KeyIdentifier⟩,
    ⟨"rfc5280.AuthorityKeyIdentifier", Verif.Rfc5280.AuthorityKeyIdentifier, Std.Rfc5280.AuthorityKeyIdentifier⟩,
    ⟨"rfc5280.FreshestCRL", Verif.Rfc5280.FreshestCRL, Std.Rfc5280.FreshestCRL⟩,
    ⟨"rfc5280.AuthorityInfoAccessSyntax", Verif.Rfc5280.AuthorityInfoAccessSyntax, Std.Rfc5280.AuthorityInfoAccessSyntax⟩,
    ⟨"rfc5280.CPSuri", Verif.Rfc5280.CPSuri, Std.Rfc5280.CPSuri⟩,
    ⟨"rfc5280.SubjectKeyIdentifier", Verif.Rfc5280.SubjectKeyIdentifier, Std.Rfc5280.SubjectKeyIdentifier⟩,
    ⟨"rfc5280.KeyPurposeId", Verif.Rfc5280.KeyPurposeId, Std.Rfc5280.KeyPurposeId⟩,
    ⟨"rfc5280.ExtKeyUsageSyntax", Verif.Rfc5280.ExtKeyUsageSyntax, Std.Rfc5280.ExtKeyUsageSyntax⟩,
    ⟨"rfc5280.HoldInstructionCode", Verif.Rfc5280.HoldInstructionCode, Std.Rfc5280.HoldInstructionCode⟩,
    ⟨"rfc5280.SubjectInfoAccessSyntax", Verif.Rfc5280.SubjectInfoAccessSyntax, Std.Rfc5280.SubjectInfoAccessSyntax⟩,
    ⟨"rfc5280.InvalidityDate", Verif.Rfc5280.InvalidityDate, Std.Rfc5280.InvalidityDate⟩,
    ⟨"rfc5280.KeyUsage", Verif.Rfc5280.KeyUsage, Std.Rfc5280.KeyUsage⟩,
    ⟨"rfc5280.CertificateIssuer", Verif.Rfc5280.CertificateIssuer, Std.Rfc5280.CertificateIssuer⟩,
    ⟨"rfc5280.PolicyConstraints", Verif.Rfc5280.PolicyConstraints, Std.Rfc5280.PolicyConstraints⟩]⟩

end Rfc5280
end Built
end Verif
