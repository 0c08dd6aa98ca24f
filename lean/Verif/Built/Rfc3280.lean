import Verif.Spec.Built
import Verif.Std.Rfc3280

/-! What rfc3280.py implements, where that is not the standard (generated by tools/builtgen.py). -/

namespace Verif
namespace Built
namespace Rfc3280

open Asn1 Verif.Std Spec.X680 Spec.Built

/-- `UnformattedPostalAddress ::=`, changed or supplied -/
def UnformattedPostalAddress : Ty :=
  SET [
    optional "printable-address" (SEQUENCE_OF (constrained (SIZE 1 30) PrintableString)),
    optional "teletex-string" (constrained (SIZE 1 180) TeletexString)]

/-- `PresentationAddress ::=`, changed or supplied -/
def PresentationAddress : Ty :=
  SEQUENCE [
    optional "pSelector" (explicit .context 0 OCTET_STRING),
    optional "sSelector" (explicit .context 1 OCTET_STRING),
    optional "tSelector" (explicit .context 2 OCTET_STRING),
    mandatory "nAddresses" (explicit .context 3 (SET_OF OCTET_STRING))]

/-- `ExtendedNetworkAddress ::=` -/
def ExtendedNetworkAddress : Ty :=
  CHOICE [
    mandatory "e163-4-address" (SEQUENCE [
      mandatory "number" (implicit .context 0 (constrained (SIZE 1 15) NumericString)),
      optional "sub-address" (implicit .context 1 (constrained (SIZE 1 40) NumericString))]),
    mandatory "psap-address" (implicit .context 0 Built.Rfc3280.PresentationAddress)]

/-- `TerminalType ::=`, changed or supplied -/
def TerminalType : Ty :=
  named [("telex", 3), ("teletex", 4), ("g3-facsimile", 5), ("g4-facsimile", 6), ("ia5-terminal", 7), ("videotex", 8)] INTEGER

/-- `PolicyQualifierId ::=`, changed or supplied -/
def PolicyQualifierId : Ty :=
  OBJECT_IDENTIFIER

/-- `PolicyQualifierInfo ::=` -/
def PolicyQualifierInfo : Ty :=
  SEQUENCE [
    mandatory "policyQualifierId" Built.Rfc3280.PolicyQualifierId,
    mandatory "qualifier" ANY]

/-- `PolicyInformation ::=`, changed or supplied -/
def PolicyInformation : Ty :=
  SEQUENCE [
    mandatory "policyIdentifier" Std.Rfc3280.CertPolicyId,
    optional "policyQualifiers" (SEQUENCE_OF Built.Rfc3280.PolicyQualifierInfo)]

/-- `CertificatePolicies ::=` -/
def CertificatePolicies : Ty :=
  constrained (SIZE_MAX 1) (SEQUENCE_OF Built.Rfc3280.PolicyInformation)

/-- `Later-DirectoryString ::=`, changed or supplied -/
def Later_DirectoryString : Ty :=
  CHOICE [
    mandatory "any" ANY]

def description : Description :=
  ⟨Verif.Rfc3280.asModule,
   [⟨"rfc3280.OrganizationalUnitName", Verif.Rfc3280.OrganizationalUnitName, Std.Rfc3280.OrganizationalUnitName⟩,
    ⟨"rfc3280.OrganizationalUnitNames", Verif.Rfc3280.OrganizationalUnitNames, Std.Rfc3280.OrganizationalUnitNames⟩,
    ⟨"rfc3280.AttributeType", Verif.Rfc3280.AttributeType, Std.Rfc3280.AttributeType⟩,
    ⟨"rfc3280.PDSParameter", Verif.Rfc3280.PDSParameter, Std.Rfc3280.PDSParameter⟩,
    ⟨"rfc3280.PhysicalDeliveryOrganizationName", Verif.Rfc3280.PhysicalDeliveryOrganizationName, Std.Rfc3280.PhysicalDeliveryOrganizationName⟩,
    ⟨"rfc3280.TeletexDomainDefinedAttribute", Verif.Rfc3280.TeletexDomainDefinedAttribute, Std.Rfc3280.TeletexDomainDefinedAttribute⟩,
    ⟨"rfc3280.PresentationAddress", Verif.Rfc3280.PresentationAddress, Built.Rfc3280.PresentationAddress⟩,
    ⟨"rfc3280.AlgorithmIdentifier", Verif.Rfc3280.AlgorithmIdentifier, Std.Rfc3280.AlgorithmIdentifier⟩,
    ⟨"rfc3280.UniqueIdentifier", Verif.Rfc3280.UniqueIdentifier, Std.Rfc3280.UniqueIdentifier⟩,
    ⟨"rfc3280.Extension", Verif.Rfc3280.Extension, Std.Rfc3280.Extension⟩,
    ⟨"rfc3280.Extensions", Verif.Rfc3280.Extensions, Std.Rfc3280.Extensions⟩,
    ⟨"rfc3280.CertificateSerialNumber", Verif.Rfc3280.CertificateSerialNumber, Std.Rfc3280.CertificateSerialNumber⟩,
    ⟨"rfc3280.SubjectPublicKeyInfo", Verif.Rfc3280.SubjectPublicKeyInfo, Std.Rfc3280.SubjectPublicKeyInfo⟩,
    ⟨"rfc3280.Time", Verif.Rfc3280.Time, Std.Rfc3280.Time⟩,
    ⟨"rfc3280.Validity", Verif.Rfc3280.Validity, Std.Rfc3280.Validity⟩,
    ⟨"rfc3280.Version", Verif.Rfc3280.Version, Std.Rfc3280.Version⟩,
    ⟨"rfc3280.AttributeValue", Verif.Rfc3280.AttributeValue, Std.Rfc3280.AttributeValue⟩,
    ⟨"rfc3280.AttributeTypeAndValue", Verif.Rfc3280.AttributeTypeAndValue, Std.Rfc3280.AttributeTypeAndValue⟩,
    ⟨"rfc3280.RelativeDistinguishedName", Verif.Rfc3280.RelativeDistinguishedName, Std.Rfc3280.RelativeDistinguishedName⟩,
    ⟨"rfc3280.RDNSequence", Verif.Rfc3280.RDNSequence, Std.Rfc3280.RDNSequence⟩,
    ⟨"rfc3280.Name", Verif.Rfc3280.Name, Std.Rfc3280.Name⟩,
    ⟨"rfc3280.TBSCertificate", Verif.Rfc3280.TBSCertificate, Std.Rfc3280.TBSCertificate⟩,
    ⟨"rfc3280.Certificate", Verif.Rfc3280.Certificate, Std.Rfc3280.Certificate⟩,
    ⟨"rfc3280.TeletexOrganizationName", Verif.Rfc3280.TeletexOrganizationName, Std.Rfc3280.TeletexOrganizationName⟩,
    ⟨"rfc3280.CountryName", Verif.Rfc3280.CountryName, Std.Rfc3280.CountryName⟩,
    ⟨"rfc3280.ExtendedNetworkAddress", Verif.Rfc3280.ExtendedNetworkAddress, Built.Rfc3280.ExtendedNetworkAddress⟩,
    ⟨"rfc3280.X520StateOrProvinceName", Verif.Rfc3280.X520StateOrProvinceName, Std.Rfc3280.X520StateOrProvinceName⟩,
    ⟨"rfc3280.X520OrganizationName", Verif.Rfc3280.X520OrganizationName, Std.Rfc3280.X520OrganizationName⟩,
    ⟨"rfc3280.ExtensionPhysicalDeliveryAddressComponents", Verif.Rfc3280.ExtensionPhysicalDeliveryAddressComponents, Std.Rfc3280.ExtensionPhysicalDeliveryAddressComponents⟩,
    ⟨"rfc3280.NumericUserIdentifier", Verif.Rfc3280.NumericUserIdentifier, Std.Rfc3280.NumericUserIdentifier⟩,
    ⟨"rfc3280.OrganizationName", Verif.Rfc3280.OrganizationName, Std.Rfc3280.OrganizationName⟩,
    ⟨"rfc3280.AdministrationDomainName", Verif.Rfc3280.AdministrationDomainName, Std.Rfc3280.AdministrationDomainName⟩,
    ⟨"rfc3280.PrivateDomainName", Verif.Rfc3280.PrivateDomainName, Std.Rfc3280.PrivateDomainName⟩,
    ⟨"rfc3280.PersonalName", Verif.Rfc3280.PersonalName, Std.Rfc3280.PersonalName⟩,
    ⟨"rfc3280.TerminalIdentifier", Verif.Rfc3280.TerminalIdentifier, Std.Rfc3280.TerminalIdentifier⟩,
    ⟨"rfc3280.X121Address", Verif.Rfc3280.X121Address, Std.Rfc3280.X121Address⟩,
    ⟨"rfc3280.NetworkAddress", Verif.Rfc3280.NetworkAddress, Std.Rfc3280.NetworkAddress⟩,
    ⟨"rfc3280.BuiltInStandardAttributes", Verif.Rfc3280.BuiltInStandardAttributes, Std.Rfc3280.BuiltInStandardAttributes⟩,
    ⟨"rfc3280.BuiltInDomainDefinedAttribute", Verif.Rfc3280.BuiltInDomainDefinedAttribute, Std.Rfc3280.BuiltInDomainDefinedAttribute⟩,
    ⟨"rfc3280.BuiltInDomainDefinedAttributes", Verif.Rfc3280.BuiltInDomainDefinedAttributes, Std.Rfc3280.BuiltInDomainDefinedAttributes⟩,
    ⟨"rfc3280.ExtensionAttribute", Verif.Rfc3280.ExtensionAttribute, Std.Rfc3280.ExtensionAttribute⟩,
    ⟨"rfc3280.ExtensionAttributes", Verif.Rfc3280.ExtensionAttributes, Std.Rfc3280.ExtensionAttributes⟩,
    ⟨"rfc3280.ORAddress", Verif.Rfc3280.ORAddress, Std.Rfc3280.ORAddress⟩,
    ⟨"rfc3280.X520Title", Verif.Rfc3280.X520Title, Std.Rfc3280.X520Title⟩,
    ⟨"rfc3280.EmailAddress", Verif.Rfc3280.EmailAddress, Std.Rfc3280.EmailAddress⟩,
    ⟨"rfc3280.TeletexCommonName", Verif.Rfc3280.TeletexCommonName, Std.Rfc3280.TeletexCommonName⟩,
    ⟨"rfc3280.LocalPostalAttributes", Verif.Rfc3280.LocalPostalAttributes, Std.Rfc3280.LocalPostalAttributes⟩,
    ⟨"rfc3280.StreetAddress", Verif.Rfc3280.StreetAddress, Std.Rfc3280.StreetAddress⟩,
    ⟨"rfc3280.DirectoryString", Verif.Rfc3280.DirectoryString, Built.Rfc3280.Later_DirectoryString⟩,
    ⟨"rfc3280.DomainComponent", Verif.Rfc3280.DomainComponent, Std.Rfc3280.DomainComponent⟩,
    ⟨"rfc3280.PDSName", Verif.Rfc3280.PDSName, Std.Rfc3280.PDSName⟩,
    ⟨"rfc3280.PosteRestanteAddress", Verif.Rfc3280.PosteRestanteAddress, Std.Rfc3280.PosteRestanteAddress⟩,
    ⟨"rfc3280.DistinguishedName", Verif.Rfc3280.DistinguishedName, Std.Rfc3280.DistinguishedName⟩,
    ⟨"rfc3280.CommonName", Verif.Rfc3280.CommonName, Std.Rfc3280.CommonName⟩,
    ⟨"rfc3280.X520SerialNumber", Verif.Rfc3280.X520SerialNumber, Std.Rfc3280.X520SerialNumber⟩,
    ⟨"rfc3280.TeletexOrganizationalUnitName", Verif.Rfc3280.TeletexOrganizationalUnitName, Std.Rfc3280.TeletexOrganizationalUnitName⟩,
    ⟨"rfc3280.TeletexPersonalName", Verif.Rfc3280.TeletexPersonalName, Std.Rfc3280.TeletexPersonalName⟩,
    ⟨"rfc3280.TeletexDomainDefinedAttributes", Verif.Rfc3280.TeletexDomainDefinedAttributes, Std.Rfc3280.TeletexDomainDefinedAttributes⟩,
    ⟨"rfc3280.TBSCertList", Verif.Rfc3280.TBSCertList, Std.Rfc3280.TBSCertList⟩,
    ⟨"rfc3280.PhysicalDeliveryCountryName", Verif.Rfc3280.PhysicalDeliveryCountryName, Std.Rfc3280.PhysicalDeliveryCountryName⟩,
    ⟨"rfc3280.X520name", Verif.Rfc3280.X520name, Std.Rfc3280.X520name⟩,
    ⟨"rfc3280.TerminalType", Verif.Rfc3280.TerminalType, Built.Rfc3280.TerminalType⟩,
    ⟨"rfc3280.X520OrganizationalUnitName", Verif.Rfc3280.X520OrganizationalUnitName, Std.Rfc3280.X520OrganizationalUnitName⟩,
    ⟨"rfc3280.X520LocalityName", Verif.Rfc3280.X520LocalityName, Std.Rfc3280.X520LocalityName⟩,
    ⟨"rfc3280.PhysicalDeliveryPersonalName", Verif.Rfc3280.PhysicalDeliveryPersonalName, Std.Rfc3280.PhysicalDeliveryPersonalName⟩,
    ⟨"rfc3280.PostalCode", Verif.Rfc3280.PostalCode, Std.Rfc3280.PostalCode⟩,
    ⟨"rfc3280.X520countryName", Verif.Rfc3280.X520countryName, Std.Rfc3280.X520countryName⟩,
    ⟨"rfc3280.PostOfficeBoxAddress", Verif.Rfc3280.PostOfficeBoxAddress, Std.Rfc3280.PostOfficeBoxAddress⟩,
    ⟨"rfc3280.PhysicalDeliveryOfficeName", Verif.Rfc3280.PhysicalDeliveryOfficeName, Std.Rfc3280.PhysicalDeliveryOfficeName⟩,
    ⟨"rfc3280.CertificateList", Verif.Rfc3280.CertificateList, Std.Rfc3280.CertificateList⟩,
    ⟨"rfc3280.PhysicalDeliveryOfficeNumber", Verif.Rfc3280.PhysicalDeliveryOfficeNumber, Std.Rfc3280.PhysicalDeliveryOfficeNumber⟩,
    ⟨"rfc3280.TeletexOrganizationalUnitNames", Verif.Rfc3280.TeletexOrganizationalUnitNames, Std.Rfc3280.TeletexOrganizationalUnitNames⟩,
    ⟨"rfc3280.ExtensionORAddressComponents", Verif.Rfc3280.ExtensionORAddressComponents, Std.Rfc3280.ExtensionORAddressComponents⟩,
    ⟨"rfc3280.X520CommonName", Verif.Rfc3280.X520CommonName, Std.Rfc3280.X520CommonName⟩,
    ⟨"rfc3280.X520dnQualifier", Verif.Rfc3280.X520dnQualifier, Std.Rfc3280.X520dnQualifier⟩,
    ⟨"rfc3280.Attribute", Verif.Rfc3280.Attribute, Std.Rfc3280.Attribute⟩,
    ⟨"rfc3280.UnformattedPostalAddress", Verif.Rfc3280.UnformattedPostalAddress, Built.Rfc3280.UnformattedPostalAddress⟩,
    ⟨"rfc3280.UniquePostalName", Verif.Rfc3280.UniquePostalName, Std.Rfc3280.UniquePostalName⟩,
    ⟨"rfc3280.X520Pseudonym", Verif.Rfc3280.X520Pseudonym, Std.Rfc3280.X520Pseudonym⟩,
    ⟨"rfc3280.EDIPartyName", Verif.Rfc3280.EDIPartyName, Std.Rfc3280.EDIPartyName⟩,
    ⟨"rfc3280.AnotherName", Verif.Rfc3280.AnotherName, Std.Rfc3280.AnotherName⟩,
    ⟨"rfc3280.GeneralName", Verif.Rfc3280.GeneralName, Std.Rfc3280.GeneralName⟩,
    ⟨"rfc3280.GeneralNames", Verif.Rfc3280.GeneralNames, Std.Rfc3280.GeneralNames⟩,
    ⟨"rfc3280.IssuerAltName", Verif.Rfc3280.IssuerAltName, Std.Rfc3280.IssuerAltName⟩,
    ⟨"rfc3280.CertPolicyId", Verif.Rfc3280.CertPolicyId, Std.Rfc3280.CertPolicyId⟩,
    ⟨"rfc3280.PolicyMappings", Verif.Rfc3280.PolicyMappings, Std.Rfc3280.PolicyMappings⟩,
    ⟨"rfc3280.PolicyQualifierId", Verif.Rfc3280.PolicyQualifierId, Built.Rfc3280.PolicyQualifierId⟩,
    ⟨"rfc3280.SubjectDirectoryAttributes", Verif.Rfc3280.SubjectDirectoryAttributes, Std.Rfc3280.SubjectDirectoryAttributes⟩,
    ⟨"rfc3280.ReasonFlags", Verif.Rfc3280.ReasonFlags, Std.Rfc3280.ReasonFlags⟩,
    ⟨"rfc3280.DistributionPointName", Verif.Rfc3280.DistributionPointName, Std.Rfc3280.DistributionPointName⟩,
    ⟨"rfc3280.DistributionPoint", Verif.Rfc3280.DistributionPoint, Std.Rfc3280.DistributionPoint⟩,
    ⟨"rfc3280.PolicyQualifierInfo", Verif.Rfc3280.PolicyQualifierInfo, Built.Rfc3280.PolicyQualifierInfo⟩,
    ⟨"rfc3280.PolicyInformation", Verif.Rfc3280.PolicyInformation, Built.Rfc3280.PolicyInformation⟩,
    ⟨"rfc3280.CertificatePolicies", Verif.Rfc3280.CertificatePolicies, Built.Rfc3280.CertificatePolicies⟩,
    ⟨"rfc3280.HoldInstructionCode", Verif.Rfc3280.HoldInstructionCode, Std.Rfc3280.HoldInstructionCode⟩,
    ⟨"rfc3280.KeyPurposeId", Verif.Rfc3280.KeyPurposeId, Std.Rfc3280.KeyPurposeId⟩,
    ⟨"rfc3280.ExtKeyUsageSyntax", Verif.Rfc3280.ExtKeyUsageSyntax, Std.Rfc3280.ExtKeyUsageSyntax⟩,
    ⟨"rfc3280.SubjectAltName", Verif.Rfc3280.SubjectAltName, Std.Rfc3280.SubjectAltName⟩,
    ⟨"rfc3280.BasicConstraints", Verif.Rfc3280.BasicConstraints, Std.Rfc3280.BasicConstraints⟩,
    ⟨"rfc3280.SkipCerts", Verif.Rfc3280.SkipCerts, Std.Rfc3280.SkipCerts⟩,
    ⟨"rfc3280.InhibitAnyPolicy", Verif.Rfc3280.InhibitAnyPolicy, Std.Rfc3280.InhibitAnyPolicy⟩,
    ⟨"rfc3280.CRLNumber", Verif.Rfc3280.CRLNumber, Std.Rfc3280.CRLNumber⟩,
    ⟨"rfc3280.BaseCRLNumber", Verif.Rfc3280.BaseCRLNumber, Std.Rfc3280.BaseCRLNumber⟩,
    ⟨"rfc3280.KeyIdentifier", Verif.Rfc3280.KeyIdentifier, Std.Rfc3280.KeyIdentifier⟩,
    ⟨"rfc3280.AuthorityKeyIdentifier", Verif.Rfc3280.AuthorityKeyIdentifier, Std.Rfc3280.AuthorityKeyIdentifier⟩,
    ⟨"rfc3280.CRLDistributionPoints", Verif.Rfc3280.CRLDistributionPoints, Std.Rfc3280.CRLDistributionPoints⟩,
    ⟨"rfc3280.FreshestCRL", Verif.Rfc3280.FreshestCRL, Std.Rfc3280.FreshestCRL⟩,
    ⟨"rfc3280.CRLReason", Verif.Rfc3280.CRLReason, Std.Rfc3280.CRLReason⟩,
    ⟨"rfc3280.BaseDistance", Verif.Rfc3280.BaseDistance, Std.Rfc3280.BaseDistance⟩,
    ⟨"rfc3280.GeneralSubtree", Verif.Rfc3280.GeneralSubtree, Std.Rfc3280.GeneralSubtree⟩,
    ⟨"rfc3280.GeneralSubtrees", Verif.Rfc3280.GeneralSubtrees, Std.Rfc3280.GeneralSubtrees⟩,
    ⟨"rfc3280.NameConstraints", Verif.Rfc3280.NameConstraints, Std.Rfc3280.NameConstraints⟩,
    ⟨"rfc3280.AccessDescription", Verif.Rfc3280.AccessDescription, Std.Rfc3280.AccessDescription⟩,
    ⟨"rfc3280.AuthorityInfoAccessSyntax", Verif.Rfc3280.AuthorityInfoAccessSyntax, Std.Rfc3280.AuthorityInfoAccessSyntax⟩,
    ⟨"rfc3280.CPSuri", Verif.Rfc3280.CPSuri, Std.Rfc3280.CPSuri⟩,
    ⟨"rfc3280.DisplayText", Verif.Rfc3280.DisplayText, Std.Rfc3280.DisplayText⟩,
    ⟨"rfc3280.NoticeReference", Verif.Rfc3280.NoticeReference, Std.Rfc3280.NoticeReference⟩,
    ⟨"rfc3280.UserNotice", Verif.Rfc3280.UserNotice, Std.Rfc3280.UserNotice⟩,
    ⟨"rfc3280.PrivateKeyUsagePeriod", Verif.Rfc3280.PrivateKeyUsagePeriod, Std.Rfc3280.PrivateKeyUsagePeriod⟩,
    ⟨"rfc3280.CertificateIssuer", Verif.Rfc3280.CertificateIssuer, Std.Rfc3280.CertificateIssuer⟩,
    ⟨"rfc3280.InvalidityDate", Verif.Rfc3280.InvalidityDate, Std.Rfc3280.InvalidityDate⟩,
    ⟨"rfc3280.SubjectInfoAccessSyntax", Verif.Rfc3280.SubjectInfoAccessSyntax, Std.Rfc3280.SubjectInfoAccessSyntax⟩,
    ⟨"rfc3280.KeyUsage", Verif.Rfc3280.KeyUsage, Std.Rfc3280.KeyUsage⟩,
    ⟨"rfc3280.PolicyConstraints", Verif.Rfc3280.PolicyConstraints, Std.Rfc3280.PolicyConstraints⟩,
    ⟨"rfc3280.SubjectKeyIdentifier", Verif.Rfc3280.SubjectKeyIdentifier, Std.Rfc3280.SubjectKeyIdentifier⟩,
    ⟨"rfc3280.IssuingDistributionPoint", Verif.Rfc3280.IssuingDistributionPoint, Std.Rfc3280.IssuingDistributionPoint⟩]⟩

end Rfc3280
end Built
end Verif
