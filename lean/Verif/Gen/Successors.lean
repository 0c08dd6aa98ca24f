import Verif.Gen.Rfc1155
import Verif.Gen.Rfc1157
import Verif.Gen.Rfc1902
import Verif.Gen.Rfc1905
import Verif.Gen.Rfc2314
import Verif.Gen.Rfc2315
import Verif.Gen.Rfc2437
import Verif.Gen.Rfc2459
import Verif.Gen.Rfc2511
import Verif.Gen.Rfc2560
import Verif.Gen.Rfc2634
import Verif.Gen.Rfc2986
import Verif.Gen.Rfc3279
import Verif.Gen.Rfc3280
import Verif.Gen.Rfc3281
import Verif.Gen.Rfc3447
import Verif.Gen.Rfc3770
import Verif.Gen.Rfc3852
import Verif.Gen.Rfc4211
import Verif.Gen.Rfc4334
import Verif.Gen.Rfc5035
import Verif.Gen.Rfc5208
import Verif.Gen.Rfc5280
import Verif.Gen.Rfc5480
import Verif.Gen.Rfc5652
import Verif.Gen.Rfc5755
import Verif.Gen.Rfc5958
import Verif.Gen.Rfc6960
import Verif.Gen.Rfc8017

/-!
# Classes of superseded modules and their successors

Generated by tools/compat.py: the classes with the same name in both modules of
2459/3280, 3280/5280, 2459/5280, 2315/3852, 3852/5652, 2315/5652, 2560/6960, 2511/4211, 5208/5958, 2314/2986, 2437/3447, 3447/8017, 2437/8017, 3281/5755, 2634/5035, 1155/1902, 1157/1905, 3279/5480, 3770/4334.
-/

namespace Verif
namespace Successors

/-- A class of an older module, and the class of the same name of a newer one. -/
structure Row where
  oldName : String
  old : Py.Obj
  newName : String
  new : Py.Obj

/-- The newer class reads all that the older one reads. -/
def compatible : List Row :=
  [⟨"rfc2459.X520name", Rfc2459.X520name, "rfc3280.X520name", Rfc3280.X520name⟩,
   ⟨"rfc2459.X520CommonName", Rfc2459.X520CommonName, "rfc3280.X520CommonName", Rfc3280.X520CommonName⟩,
   ⟨"rfc2459.X520LocalityName", Rfc2459.X520LocalityName, "rfc3280.X520LocalityName", Rfc3280.X520LocalityName⟩,
   ⟨"rfc2459.X520StateOrProvinceName", Rfc2459.X520StateOrProvinceName, "rfc3280.X520StateOrProvinceName", Rfc3280.X520StateOrProvinceName⟩,
   ⟨"rfc2459.X520OrganizationName", Rfc2459.X520OrganizationName, "rfc3280.X520OrganizationName", Rfc3280.X520OrganizationName⟩,
   ⟨"rfc2459.X520OrganizationalUnitName", Rfc2459.X520OrganizationalUnitName, "rfc3280.X520OrganizationalUnitName", Rfc3280.X520OrganizationalUnitName⟩,
   ⟨"rfc2459.X520Title", Rfc2459.X520Title, "rfc3280.X520Title", Rfc3280.X520Title⟩,
   ⟨"rfc2459.X520dnQualifier", Rfc2459.X520dnQualifier, "rfc3280.X520dnQualifier", Rfc3280.X520dnQualifier⟩,
   ⟨"rfc2459.X520countryName", Rfc2459.X520countryName, "rfc3280.X520countryName", Rfc3280.X520countryName⟩,
   ⟨"rfc2459.DirectoryString", Rfc2459.DirectoryString, "rfc3280.DirectoryString", Rfc3280.DirectoryString⟩,
   ⟨"rfc2459.AlgorithmIdentifier", Rfc2459.AlgorithmIdentifier, "rfc3280.AlgorithmIdentifier", Rfc3280.AlgorithmIdentifier⟩,
   ⟨"rfc2459.TerminalType", Rfc2459.TerminalType, "rfc3280.TerminalType", Rfc3280.TerminalType⟩,
   ⟨"rfc2459.PDSParameter", Rfc2459.PDSParameter, "rfc3280.PDSParameter", Rfc3280.PDSParameter⟩,
   ⟨"rfc2459.LocalPostalAttributes", Rfc2459.LocalPostalAttributes, "rfc3280.LocalPostalAttributes", Rfc3280.LocalPostalAttributes⟩,
   ⟨"rfc2459.UniquePostalName", Rfc2459.UniquePostalName, "rfc3280.UniquePostalName", Rfc3280.UniquePostalName⟩,
   ⟨"rfc2459.PosteRestanteAddress", Rfc2459.PosteRestanteAddress, "rfc3280.PosteRestanteAddress", Rfc3280.PosteRestanteAddress⟩,
   ⟨"rfc2459.PostOfficeBoxAddress", Rfc2459.PostOfficeBoxAddress, "rfc3280.PostOfficeBoxAddress", Rfc3280.PostOfficeBoxAddress⟩,
   ⟨"rfc2459.StreetAddress", Rfc2459.StreetAddress, "rfc3280.StreetAddress", Rfc3280.StreetAddress⟩,
   ⟨"rfc2459.UnformattedPostalAddress", Rfc2459.UnformattedPostalAddress, "rfc3280.UnformattedPostalAddress", Rfc3280.UnformattedPostalAddress⟩,
   ⟨"rfc2459.PhysicalDeliveryOfficeName", Rfc2459.PhysicalDeliveryOfficeName, "rfc3280.PhysicalDeliveryOfficeName", Rfc3280.PhysicalDeliveryOfficeName⟩,
   ⟨"rfc2459.PhysicalDeliveryOfficeNumber", Rfc2459.PhysicalDeliveryOfficeNumber, "rfc3280.PhysicalDeliveryOfficeNumber", Rfc3280.PhysicalDeliveryOfficeNumber⟩,
   ⟨"rfc2459.ExtensionORAddressComponents", Rfc2459.ExtensionORAddressComponents, "rfc3280.ExtensionORAddressComponents", Rfc3280.ExtensionORAddressComponents⟩,
   ⟨"rfc2459.PhysicalDeliveryPersonalName", Rfc2459.PhysicalDeliveryPersonalName, "rfc3280.PhysicalDeliveryPersonalName", Rfc3280.PhysicalDeliveryPersonalName⟩,
   ⟨"rfc2459.PhysicalDeliveryOrganizationName", Rfc2459.PhysicalDeliveryOrganizationName, "rfc3280.PhysicalDeliveryOrganizationName", Rfc3280.PhysicalDeliveryOrganizationName⟩,
   ⟨"rfc2459.ExtensionPhysicalDeliveryAddressComponents", Rfc2459.ExtensionPhysicalDeliveryAddressComponents, "rfc3280.ExtensionPhysicalDeliveryAddressComponents", Rfc3280.ExtensionPhysicalDeliveryAddressComponents⟩,
   ⟨"rfc2459.PostalCode", Rfc2459.PostalCode, "rfc3280.PostalCode", Rfc3280.PostalCode⟩,
   ⟨"rfc2459.PhysicalDeliveryCountryName", Rfc2459.PhysicalDeliveryCountryName, "rfc3280.PhysicalDeliveryCountryName", Rfc3280.PhysicalDeliveryCountryName⟩,
   ⟨"rfc2459.PDSName", Rfc2459.PDSName, "rfc3280.PDSName", Rfc3280.PDSName⟩,
   ⟨"rfc2459.TeletexOrganizationalUnitName", Rfc2459.TeletexOrganizationalUnitName, "rfc3280.TeletexOrganizationalUnitName", Rfc3280.TeletexOrganizationalUnitName⟩,
   ⟨"rfc2459.TeletexOrganizationalUnitNames", Rfc2459.TeletexOrganizationalUnitNames, "rfc3280.TeletexOrganizationalUnitNames", Rfc3280.TeletexOrganizationalUnitNames⟩,
   ⟨"rfc2459.TeletexOrganizationName", Rfc2459.TeletexOrganizationName, "rfc3280.TeletexOrganizationName", Rfc3280.TeletexOrganizationName⟩,
   ⟨"rfc2459.TeletexCommonName", Rfc2459.TeletexCommonName, "rfc3280.TeletexCommonName", Rfc3280.TeletexCommonName⟩,
   ⟨"rfc2459.CommonName", Rfc2459.CommonName, "rfc3280.CommonName", Rfc3280.CommonName⟩,
   ⟨"rfc2459.ExtensionAttribute", Rfc2459.ExtensionAttribute, "rfc3280.ExtensionAttribute", Rfc3280.ExtensionAttribute⟩,
   ⟨"rfc2459.ExtensionAttributes", Rfc2459.ExtensionAttributes, "rfc3280.ExtensionAttributes", Rfc3280.ExtensionAttributes⟩,
   ⟨"rfc2459.BuiltInDomainDefinedAttribute", Rfc2459.BuiltInDomainDefinedAttribute, "rfc3280.BuiltInDomainDefinedAttribute", Rfc3280.BuiltInDomainDefinedAttribute⟩,
   ⟨"rfc2459.BuiltInDomainDefinedAttributes", Rfc2459.BuiltInDomainDefinedAttributes, "rfc3280.BuiltInDomainDefinedAttributes", Rfc3280.BuiltInDomainDefinedAttributes⟩,
   ⟨"rfc2459.OrganizationalUnitName", Rfc2459.OrganizationalUnitName, "rfc3280.OrganizationalUnitName", Rfc3280.OrganizationalUnitName⟩,
   ⟨"rfc2459.OrganizationalUnitNames", Rfc2459.OrganizationalUnitNames, "rfc3280.OrganizationalUnitNames", Rfc3280.OrganizationalUnitNames⟩,
   ⟨"rfc2459.NumericUserIdentifier", Rfc2459.NumericUserIdentifier, "rfc3280.NumericUserIdentifier", Rfc3280.NumericUserIdentifier⟩,
   ⟨"rfc2459.OrganizationName", Rfc2459.OrganizationName, "rfc3280.OrganizationName", Rfc3280.OrganizationName⟩,
   ⟨"rfc2459.PrivateDomainName", Rfc2459.PrivateDomainName, "rfc3280.PrivateDomainName", Rfc3280.PrivateDomainName⟩,
   ⟨"rfc2459.TerminalIdentifier", Rfc2459.TerminalIdentifier, "rfc3280.TerminalIdentifier", Rfc3280.TerminalIdentifier⟩,
   ⟨"rfc2459.X121Address", Rfc2459.X121Address, "rfc3280.X121Address", Rfc3280.X121Address⟩,
   ⟨"rfc2459.NetworkAddress", Rfc2459.NetworkAddress, "rfc3280.NetworkAddress", Rfc3280.NetworkAddress⟩,
   ⟨"rfc2459.AdministrationDomainName", Rfc2459.AdministrationDomainName, "rfc3280.AdministrationDomainName", Rfc3280.AdministrationDomainName⟩,
   ⟨"rfc2459.CountryName", Rfc2459.CountryName, "rfc3280.CountryName", Rfc3280.CountryName⟩,
   ⟨"rfc2459.InvalidityDate", Rfc2459.InvalidityDate, "rfc3280.InvalidityDate", Rfc3280.InvalidityDate⟩,
   ⟨"rfc2459.HoldInstructionCode", Rfc2459.HoldInstructionCode, "rfc3280.HoldInstructionCode", Rfc3280.HoldInstructionCode⟩,
   ⟨"rfc2459.CRLReason", Rfc2459.CRLReason, "rfc3280.CRLReason", Rfc3280.CRLReason⟩,
   ⟨"rfc2459.CRLNumber", Rfc2459.CRLNumber, "rfc3280.CRLNumber", Rfc3280.CRLNumber⟩,
   ⟨"rfc2459.BaseCRLNumber", Rfc2459.BaseCRLNumber, "rfc3280.BaseCRLNumber", Rfc3280.BaseCRLNumber⟩,
   ⟨"rfc2459.KeyPurposeId", Rfc2459.KeyPurposeId, "rfc3280.KeyPurposeId", Rfc3280.KeyPurposeId⟩,
   ⟨"rfc2459.ExtKeyUsageSyntax", Rfc2459.ExtKeyUsageSyntax, "rfc3280.ExtKeyUsageSyntax", Rfc3280.ExtKeyUsageSyntax⟩,
   ⟨"rfc2459.ReasonFlags", Rfc2459.ReasonFlags, "rfc3280.ReasonFlags", Rfc3280.ReasonFlags⟩,
   ⟨"rfc2459.SkipCerts", Rfc2459.SkipCerts, "rfc3280.SkipCerts", Rfc3280.SkipCerts⟩,
   ⟨"rfc2459.PolicyConstraints", Rfc2459.PolicyConstraints, "rfc3280.PolicyConstraints", Rfc3280.PolicyConstraints⟩,
   ⟨"rfc2459.BasicConstraints", Rfc2459.BasicConstraints, "rfc3280.BasicConstraints", Rfc3280.BasicConstraints⟩,
   ⟨"rfc2459.BaseDistance", Rfc2459.BaseDistance, "rfc3280.BaseDistance", Rfc3280.BaseDistance⟩,
   ⟨"rfc2459.DisplayText", Rfc2459.DisplayText, "rfc3280.DisplayText", Rfc3280.DisplayText⟩,
   ⟨"rfc2459.NoticeReference", Rfc2459.NoticeReference, "rfc3280.NoticeReference", Rfc3280.NoticeReference⟩,
   ⟨"rfc2459.UserNotice", Rfc2459.UserNotice, "rfc3280.UserNotice", Rfc3280.UserNotice⟩,
   ⟨"rfc2459.CPSuri", Rfc2459.CPSuri, "rfc3280.CPSuri", Rfc3280.CPSuri⟩,
   ⟨"rfc2459.PolicyQualifierId", Rfc2459.PolicyQualifierId, "rfc3280.PolicyQualifierId", Rfc3280.PolicyQualifierId⟩,
   ⟨"rfc2459.CertPolicyId", Rfc2459.CertPolicyId, "rfc3280.CertPolicyId", Rfc3280.CertPolicyId⟩,
   ⟨"rfc2459.PolicyQualifierInfo", Rfc2459.PolicyQualifierInfo, "rfc3280.PolicyQualifierInfo", Rfc3280.PolicyQualifierInfo⟩,
   ⟨"rfc2459.PolicyInformation", Rfc2459.PolicyInformation, "rfc3280.PolicyInformation", Rfc3280.PolicyInformation⟩,
   ⟨"rfc2459.CertificatePolicies", Rfc2459.CertificatePolicies, "rfc3280.CertificatePolicies", Rfc3280.CertificatePolicies⟩,
   ⟨"rfc2459.PolicyMappings", Rfc2459.PolicyMappings, "rfc3280.PolicyMappings", Rfc3280.PolicyMappings⟩,
   ⟨"rfc2459.PrivateKeyUsagePeriod", Rfc2459.PrivateKeyUsagePeriod, "rfc3280.PrivateKeyUsagePeriod", Rfc3280.PrivateKeyUsagePeriod⟩,
   ⟨"rfc2459.KeyUsage", Rfc2459.KeyUsage, "rfc3280.KeyUsage", Rfc3280.KeyUsage⟩,
   ⟨"rfc2459.KeyIdentifier", Rfc2459.KeyIdentifier, "rfc3280.KeyIdentifier", Rfc3280.KeyIdentifier⟩,
   ⟨"rfc2459.SubjectKeyIdentifier", Rfc2459.SubjectKeyIdentifier, "rfc3280.SubjectKeyIdentifier", Rfc3280.SubjectKeyIdentifier⟩,
   ⟨"rfc2459.AttributeValue", Rfc2459.AttributeValue, "rfc3280.AttributeValue", Rfc3280.AttributeValue⟩,
   ⟨"rfc2459.AttributeType", Rfc2459.AttributeType, "rfc3280.AttributeType", Rfc3280.AttributeType⟩,
   ⟨"rfc2459.AttributeTypeAndValue", Rfc2459.AttributeTypeAndValue, "rfc3280.AttributeTypeAndValue", Rfc3280.AttributeTypeAndValue⟩,
   ⟨"rfc2459.Attribute", Rfc2459.Attribute, "rfc3280.Attribute", Rfc3280.Attribute⟩,
   ⟨"rfc2459.SubjectDirectoryAttributes", Rfc2459.SubjectDirectoryAttributes, "rfc3280.SubjectDirectoryAttributes", Rfc3280.SubjectDirectoryAttributes⟩,
   ⟨"rfc2459.RelativeDistinguishedName", Rfc2459.RelativeDistinguishedName, "rfc3280.RelativeDistinguishedName", Rfc3280.RelativeDistinguishedName⟩,
   ⟨"rfc2459.RDNSequence", Rfc2459.RDNSequence, "rfc3280.RDNSequence", Rfc3280.RDNSequence⟩,
   ⟨"rfc2459.Name", Rfc2459.Name, "rfc3280.Name", Rfc3280.Name⟩,
   ⟨"rfc2459.CertificateSerialNumber", Rfc2459.CertificateSerialNumber, "rfc3280.CertificateSerialNumber", Rfc3280.CertificateSerialNumber⟩,
   ⟨"rfc2459.AnotherName", Rfc2459.AnotherName, "rfc3280.AnotherName", Rfc3280.AnotherName⟩,
   ⟨"rfc2459.Extension", Rfc2459.Extension, "rfc3280.Extension", Rfc3280.Extension⟩,
   ⟨"rfc2459.Extensions", Rfc2459.Extensions, "rfc3280.Extensions", Rfc3280.Extensions⟩,
   ⟨"rfc2459.SubjectPublicKeyInfo", Rfc2459.SubjectPublicKeyInfo, "rfc3280.SubjectPublicKeyInfo", Rfc3280.SubjectPublicKeyInfo⟩,
   ⟨"rfc2459.UniqueIdentifier", Rfc2459.UniqueIdentifier, "rfc3280.UniqueIdentifier", Rfc3280.UniqueIdentifier⟩,
   ⟨"rfc2459.Time", Rfc2459.Time, "rfc3280.Time", Rfc3280.Time⟩,
   ⟨"rfc2459.Validity", Rfc2459.Validity, "rfc3280.Validity", Rfc3280.Validity⟩,
   ⟨"rfc2459.Version", Rfc2459.Version, "rfc3280.Version", Rfc3280.Version⟩,
   ⟨"rfc2459.TBSCertificate", Rfc2459.TBSCertificate, "rfc3280.TBSCertificate", Rfc3280.TBSCertificate⟩,
   ⟨"rfc2459.Certificate", Rfc2459.Certificate, "rfc3280.Certificate", Rfc3280.Certificate⟩,
   ⟨"rfc2459.TBSCertList", Rfc2459.TBSCertList, "rfc3280.TBSCertList", Rfc3280.TBSCertList⟩,
   ⟨"rfc2459.CertificateList", Rfc2459.CertificateList, "rfc3280.CertificateList", Rfc3280.CertificateList⟩,
   ⟨"rfc3280.OrganizationalUnitName", Rfc3280.OrganizationalUnitName, "rfc5280.OrganizationalUnitName", Rfc5280.OrganizationalUnitName⟩,
   ⟨"rfc3280.OrganizationalUnitNames", Rfc3280.OrganizationalUnitNames, "rfc5280.OrganizationalUnitNames", Rfc5280.OrganizationalUnitNames⟩,
   ⟨"rfc3280.AttributeType", Rfc3280.AttributeType, "rfc5280.AttributeType", Rfc5280.AttributeType⟩,
   ⟨"rfc3280.PDSParameter", Rfc3280.PDSParameter, "rfc5280.PDSParameter", Rfc5280.PDSParameter⟩,
   ⟨"rfc3280.PhysicalDeliveryOrganizationName", Rfc3280.PhysicalDeliveryOrganizationName, "rfc5280.PhysicalDeliveryOrganizationName", Rfc5280.PhysicalDeliveryOrganizationName⟩,
   ⟨"rfc3280.TeletexDomainDefinedAttribute", Rfc3280.TeletexDomainDefinedAttribute, "rfc5280.TeletexDomainDefinedAttribute", Rfc5280.TeletexDomainDefinedAttribute⟩,
   ⟨"rfc3280.PresentationAddress", Rfc3280.PresentationAddress, "rfc5280.PresentationAddress", Rfc5280.PresentationAddress⟩,
   ⟨"rfc3280.AlgorithmIdentifier", Rfc3280.AlgorithmIdentifier, "rfc5280.AlgorithmIdentifier", Rfc5280.AlgorithmIdentifier⟩,
   ⟨"rfc3280.UniqueIdentifier", Rfc3280.UniqueIdentifier, "rfc5280.UniqueIdentifier", Rfc5280.UniqueIdentifier⟩,
   ⟨"rfc3280.Extension", Rfc3280.Extension, "rfc5280.Extension", Rfc5280.Extension⟩,
   ⟨"rfc3280.Extensions", Rfc3280.Extensions, "rfc5280.Extensions", Rfc5280.Extensions⟩,
   ⟨"rfc3280.CertificateSerialNumber", Rfc3280.CertificateSerialNumber, "rfc5280.CertificateSerialNumber", Rfc5280.CertificateSerialNumber⟩,
   ⟨"rfc3280.SubjectPublicKeyInfo", Rfc3280.SubjectPublicKeyInfo, "rfc5280.SubjectPublicKeyInfo", Rfc5280.SubjectPublicKeyInfo⟩,
   ⟨"rfc3280.Time", Rfc3280.Time, "rfc5280.Time", Rfc5280.Time⟩,
   ⟨"rfc3280.Validity", Rfc3280.Validity, "rfc5280.Validity", Rfc5280.Validity⟩,
   ⟨"rfc3280.Version", Rfc3280.Version, "rfc5280.Version", Rfc5280.Version⟩,
   ⟨"rfc3280.AttributeValue", Rfc3280.AttributeValue, "rfc5280.AttributeValue", Rfc5280.AttributeValue⟩,
   ⟨"rfc3280.AttributeTypeAndValue", Rfc3280.AttributeTypeAndValue, "rfc5280.AttributeTypeAndValue", Rfc5280.AttributeTypeAndValue⟩,
   ⟨"rfc3280.RelativeDistinguishedName", Rfc3280.RelativeDistinguishedName, "rfc5280.RelativeDistinguishedName", Rfc5280.RelativeDistinguishedName⟩,
   ⟨"rfc3280.RDNSequence", Rfc3280.RDNSequence, "rfc5280.RDNSequence", Rfc5280.RDNSequence⟩,
   ⟨"rfc3280.Name", Rfc3280.Name, "rfc5280.Name", Rfc5280.Name⟩,
   ⟨"rfc3280.TBSCertificate", Rfc3280.TBSCertificate, "rfc5280.TBSCertificate", Rfc5280.TBSCertificate⟩,
   ⟨"rfc3280.Certificate", Rfc3280.Certificate, "rfc5280.Certificate", Rfc5280.Certificate⟩,
   ⟨"rfc3280.TeletexOrganizationName", Rfc3280.TeletexOrganizationName, "rfc5280.TeletexOrganizationName", Rfc5280.TeletexOrganizationName⟩,
   ⟨"rfc3280.CountryName", Rfc3280.CountryName, "rfc5280.CountryName", Rfc5280.CountryName⟩,
   ⟨"rfc3280.ExtendedNetworkAddress", Rfc3280.ExtendedNetworkAddress, "rfc5280.ExtendedNetworkAddress", Rfc5280.ExtendedNetworkAddress⟩,
   ⟨"rfc3280.X520StateOrProvinceName", Rfc3280.X520StateOrProvinceName, "rfc5280.X520StateOrProvinceName", Rfc5280.X520StateOrProvinceName⟩,
   ⟨"rfc3280.X520OrganizationName", Rfc3280.X520OrganizationName, "rfc5280.X520OrganizationName", Rfc5280.X520OrganizationName⟩,
   ⟨"rfc3280.ExtensionPhysicalDeliveryAddressComponents", Rfc3280.ExtensionPhysicalDeliveryAddressComponents, "rfc5280.ExtensionPhysicalDeliveryAddressComponents", Rfc5280.ExtensionPhysicalDeliveryAddressComponents⟩,
   ⟨"rfc3280.NumericUserIdentifier", Rfc3280.NumericUserIdentifier, "rfc5280.NumericUserIdentifier", Rfc5280.NumericUserIdentifier⟩,
   ⟨"rfc3280.OrganizationName", Rfc3280.OrganizationName, "rfc5280.OrganizationName", Rfc5280.OrganizationName⟩,
   ⟨"rfc3280.AdministrationDomainName", Rfc3280.AdministrationDomainName, "rfc5280.AdministrationDomainName", Rfc5280.AdministrationDomainName⟩,
   ⟨"rfc3280.PrivateDomainName", Rfc3280.PrivateDomainName, "rfc5280.PrivateDomainName", Rfc5280.PrivateDomainName⟩,
   ⟨"rfc3280.PersonalName", Rfc3280.PersonalName, "rfc5280.PersonalName", Rfc5280.PersonalName⟩,
   ⟨"rfc3280.TerminalIdentifier", Rfc3280.TerminalIdentifier, "rfc5280.TerminalIdentifier", Rfc5280.TerminalIdentifier⟩,
   ⟨"rfc3280.X121Address", Rfc3280.X121Address, "rfc5280.X121Address", Rfc5280.X121Address⟩,
   ⟨"rfc3280.NetworkAddress", Rfc3280.NetworkAddress, "rfc5280.NetworkAddress", Rfc5280.NetworkAddress⟩,
   ⟨"rfc3280.BuiltInStandardAttributes", Rfc3280.BuiltInStandardAttributes, "rfc5280.BuiltInStandardAttributes", Rfc5280.BuiltInStandardAttributes⟩,
   ⟨"rfc3280.BuiltInDomainDefinedAttribute", Rfc3280.BuiltInDomainDefinedAttribute, "rfc5280.BuiltInDomainDefinedAttribute", Rfc5280.BuiltInDomainDefinedAttribute⟩,
   ⟨"rfc3280.BuiltInDomainDefinedAttributes", Rfc3280.BuiltInDomainDefinedAttributes, "rfc5280.BuiltInDomainDefinedAttributes", Rfc5280.BuiltInDomainDefinedAttributes⟩,
   ⟨"rfc3280.ExtensionAttribute", Rfc3280.ExtensionAttribute, "rfc5280.ExtensionAttribute", Rfc5280.ExtensionAttribute⟩,
   ⟨"rfc3280.ExtensionAttributes", Rfc3280.ExtensionAttributes, "rfc5280.ExtensionAttributes", Rfc5280.ExtensionAttributes⟩,
   ⟨"rfc3280.ORAddress", Rfc3280.ORAddress, "rfc5280.ORAddress", Rfc5280.ORAddress⟩,
   ⟨"rfc3280.X520Title", Rfc3280.X520Title, "rfc5280.X520Title", Rfc5280.X520Title⟩,
   ⟨"rfc3280.EmailAddress", Rfc3280.EmailAddress, "rfc5280.EmailAddress", Rfc5280.EmailAddress⟩,
   ⟨"rfc3280.TeletexCommonName", Rfc3280.TeletexCommonName, "rfc5280.TeletexCommonName", Rfc5280.TeletexCommonName⟩,
   ⟨"rfc3280.LocalPostalAttributes", Rfc3280.LocalPostalAttributes, "rfc5280.LocalPostalAttributes", Rfc5280.LocalPostalAttributes⟩,
   ⟨"rfc3280.StreetAddress", Rfc3280.StreetAddress, "rfc5280.StreetAddress", Rfc5280.StreetAddress⟩,
   ⟨"rfc3280.DomainComponent", Rfc3280.DomainComponent, "rfc5280.DomainComponent", Rfc5280.DomainComponent⟩,
   ⟨"rfc3280.PDSName", Rfc3280.PDSName, "rfc5280.PDSName", Rfc5280.PDSName⟩,
   ⟨"rfc3280.PosteRestanteAddress", Rfc3280.PosteRestanteAddress, "rfc5280.PosteRestanteAddress", Rfc5280.PosteRestanteAddress⟩,
   ⟨"rfc3280.DistinguishedName", Rfc3280.DistinguishedName, "rfc5280.DistinguishedName", Rfc5280.DistinguishedName⟩,
   ⟨"rfc3280.CommonName", Rfc3280.CommonName, "rfc5280.CommonName", Rfc5280.CommonName⟩,
   ⟨"rfc3280.X520SerialNumber", Rfc3280.X520SerialNumber, "rfc5280.X520SerialNumber", Rfc5280.X520SerialNumber⟩,
   ⟨"rfc3280.TeletexOrganizationalUnitName", Rfc3280.TeletexOrganizationalUnitName, "rfc5280.TeletexOrganizationalUnitName", Rfc5280.TeletexOrganizationalUnitName⟩,
   ⟨"rfc3280.TeletexPersonalName", Rfc3280.TeletexPersonalName, "rfc5280.TeletexPersonalName", Rfc5280.TeletexPersonalName⟩,
   ⟨"rfc3280.TeletexDomainDefinedAttributes", Rfc3280.TeletexDomainDefinedAttributes, "rfc5280.TeletexDomainDefinedAttributes", Rfc5280.TeletexDomainDefinedAttributes⟩,
   ⟨"rfc3280.TBSCertList", Rfc3280.TBSCertList, "rfc5280.TBSCertList", Rfc5280.TBSCertList⟩,
   ⟨"rfc3280.PhysicalDeliveryCountryName", Rfc3280.PhysicalDeliveryCountryName, "rfc5280.PhysicalDeliveryCountryName", Rfc5280.PhysicalDeliveryCountryName⟩,
   ⟨"rfc3280.X520name", Rfc3280.X520name, "rfc5280.X520name", Rfc5280.X520name⟩,
   ⟨"rfc3280.TerminalType", Rfc3280.TerminalType, "rfc5280.TerminalType", Rfc5280.TerminalType⟩,
   ⟨"rfc3280.X520OrganizationalUnitName", Rfc3280.X520OrganizationalUnitName, "rfc5280.X520OrganizationalUnitName", Rfc5280.X520OrganizationalUnitName⟩,
   ⟨"rfc3280.X520LocalityName", Rfc3280.X520LocalityName, "rfc5280.X520LocalityName", Rfc5280.X520LocalityName⟩,
   ⟨"rfc3280.PhysicalDeliveryPersonalName", Rfc3280.PhysicalDeliveryPersonalName, "rfc5280.PhysicalDeliveryPersonalName", Rfc5280.PhysicalDeliveryPersonalName⟩,
   ⟨"rfc3280.PostalCode", Rfc3280.PostalCode, "rfc5280.PostalCode", Rfc5280.PostalCode⟩,
   ⟨"rfc3280.X520countryName", Rfc3280.X520countryName, "rfc5280.X520countryName", Rfc5280.X520countryName⟩,
   ⟨"rfc3280.PostOfficeBoxAddress", Rfc3280.PostOfficeBoxAddress, "rfc5280.PostOfficeBoxAddress", Rfc5280.PostOfficeBoxAddress⟩,
   ⟨"rfc3280.PhysicalDeliveryOfficeName", Rfc3280.PhysicalDeliveryOfficeName, "rfc5280.PhysicalDeliveryOfficeName", Rfc5280.PhysicalDeliveryOfficeName⟩,
   ⟨"rfc3280.CertificateList", Rfc3280.CertificateList, "rfc5280.CertificateList", Rfc5280.CertificateList⟩,
   ⟨"rfc3280.PhysicalDeliveryOfficeNumber", Rfc3280.PhysicalDeliveryOfficeNumber, "rfc5280.PhysicalDeliveryOfficeNumber", Rfc5280.PhysicalDeliveryOfficeNumber⟩,
   ⟨"rfc3280.TeletexOrganizationalUnitNames", Rfc3280.TeletexOrganizationalUnitNames, "rfc5280.TeletexOrganizationalUnitNames", Rfc5280.TeletexOrganizationalUnitNames⟩,
   ⟨"rfc3280.ExtensionORAddressComponents", Rfc3280.ExtensionORAddressComponents, "rfc5280.ExtensionORAddressComponents", Rfc5280.ExtensionORAddressComponents⟩,
   ⟨"rfc3280.X520CommonName", Rfc3280.X520CommonName, "rfc5280.X520CommonName", Rfc5280.X520CommonName⟩,
   ⟨"rfc3280.X520dnQualifier", Rfc3280.X520dnQualifier, "rfc5280.X520dnQualifier", Rfc5280.X520dnQualifier⟩,
   ⟨"rfc3280.Attribute", Rfc3280.Attribute, "rfc5280.Attribute", Rfc5280.Attribute⟩,
   ⟨"rfc3280.UnformattedPostalAddress", Rfc3280.UnformattedPostalAddress, "rfc5280.UnformattedPostalAddress", Rfc5280.UnformattedPostalAddress⟩,
   ⟨"rfc3280.UniquePostalName", Rfc3280.UniquePostalName, "rfc5280.UniquePostalName", Rfc5280.UniquePostalName⟩,
   ⟨"rfc3280.X520Pseudonym", Rfc3280.X520Pseudonym, "rfc5280.X520Pseudonym", Rfc5280.X520Pseudonym⟩,
   ⟨"rfc3280.EDIPartyName", Rfc3280.EDIPartyName, "rfc5280.EDIPartyName", Rfc5280.EDIPartyName⟩,
   ⟨"rfc3280.AnotherName", Rfc3280.AnotherName, "rfc5280.AnotherName", Rfc5280.AnotherName⟩,
   ⟨"rfc3280.GeneralName", Rfc3280.GeneralName, "rfc5280.GeneralName", Rfc5280.GeneralName⟩,
   ⟨"rfc3280.GeneralNames", Rfc3280.GeneralNames, "rfc5280.GeneralNames", Rfc5280.GeneralNames⟩,
   ⟨"rfc3280.IssuerAltName", Rfc3280.IssuerAltName, "rfc5280.IssuerAltName", Rfc5280.IssuerAltName⟩,
   ⟨"rfc3280.CertPolicyId", Rfc3280.CertPolicyId, "rfc5280.CertPolicyId", Rfc5280.CertPolicyId⟩,
   ⟨"rfc3280.PolicyMappings", Rfc3280.PolicyMappings, "rfc5280.PolicyMappings", Rfc5280.PolicyMappings⟩,
   ⟨"rfc3280.PolicyQualifierId", Rfc3280.PolicyQualifierId, "rfc5280.PolicyQualifierId", Rfc5280.PolicyQualifierId⟩,
   ⟨"rfc3280.SubjectDirectoryAttributes", Rfc3280.SubjectDirectoryAttributes, "rfc5280.SubjectDirectoryAttributes", Rfc5280.SubjectDirectoryAttributes⟩,
   ⟨"rfc3280.ReasonFlags", Rfc3280.ReasonFlags, "rfc5280.ReasonFlags", Rfc5280.ReasonFlags⟩,
   ⟨"rfc3280.DistributionPointName", Rfc3280.DistributionPointName, "rfc5280.DistributionPointName", Rfc5280.DistributionPointName⟩,
   ⟨"rfc3280.DistributionPoint", Rfc3280.DistributionPoint, "rfc5280.DistributionPoint", Rfc5280.DistributionPoint⟩,
   ⟨"rfc3280.PolicyQualifierInfo", Rfc3280.PolicyQualifierInfo, "rfc5280.PolicyQualifierInfo", Rfc5280.PolicyQualifierInfo⟩,
   ⟨"rfc3280.PolicyInformation", Rfc3280.PolicyInformation, "rfc5280.PolicyInformation", Rfc5280.PolicyInformation⟩,
   ⟨"rfc3280.CertificatePolicies", Rfc3280.CertificatePolicies, "rfc5280.CertificatePolicies", Rfc5280.CertificatePolicies⟩,
   ⟨"rfc3280.HoldInstructionCode", Rfc3280.HoldInstructionCode, "rfc5280.HoldInstructionCode", Rfc5280.HoldInstructionCode⟩,
   ⟨"rfc3280.KeyPurposeId", Rfc3280.KeyPurposeId, "rfc5280.KeyPurposeId", Rfc5280.KeyPurposeId⟩,
   ⟨"rfc3280.ExtKeyUsageSyntax", Rfc3280.ExtKeyUsageSyntax, "rfc5280.ExtKeyUsageSyntax", Rfc5280.ExtKeyUsageSyntax⟩,
   ⟨"rfc3280.SubjectAltName", Rfc3280.SubjectAltName, "rfc5280.SubjectAltName", Rfc5280.SubjectAltName⟩,
   ⟨"rfc3280.BasicConstraints", Rfc3280.BasicConstraints, "rfc5280.BasicConstraints", Rfc5280.BasicConstraints⟩,
   ⟨"rfc3280.SkipCerts", Rfc3280.SkipCerts, "rfc5280.SkipCerts", Rfc5280.SkipCerts⟩,
   ⟨"rfc3280.InhibitAnyPolicy", Rfc3280.InhibitAnyPolicy, "rfc5280.InhibitAnyPolicy", Rfc5280.InhibitAnyPolicy⟩,
   ⟨"rfc3280.CRLNumber", Rfc3280.CRLNumber, "rfc5280.CRLNumber", Rfc5280.CRLNumber⟩,
   ⟨"rfc3280.BaseCRLNumber", Rfc3280.BaseCRLNumber, "rfc5280.BaseCRLNumber", Rfc5280.BaseCRLNumber⟩,
   ⟨"rfc3280.KeyIdentifier", Rfc3280.KeyIdentifier, "rfc5280.KeyIdentifier", Rfc5280.KeyIdentifier⟩,
   ⟨"rfc3280.AuthorityKeyIdentifier", Rfc3280.AuthorityKeyIdentifier, "rfc5280.AuthorityKeyIdentifier", Rfc5280.AuthorityKeyIdentifier⟩,
   ⟨"rfc3280.CRLDistributionPoints", Rfc3280.CRLDistributionPoints, "rfc5280.CRLDistributionPoints", Rfc5280.CRLDistributionPoints⟩,
   ⟨"rfc3280.FreshestCRL", Rfc3280.FreshestCRL, "rfc5280.FreshestCRL", Rfc5280.FreshestCRL⟩,
   ⟨"rfc3280.CRLReason", Rfc3280.CRLReason, "rfc5280.CRLReason", Rfc5280.CRLReason⟩,
   ⟨"rfc3280.BaseDistance", Rfc3280.BaseDistance, "rfc5280.BaseDistance", Rfc5280.BaseDistance⟩,
   ⟨"rfc3280.GeneralSubtree", Rfc3280.GeneralSubtree, "rfc5280.GeneralSubtree", Rfc5280.GeneralSubtree⟩,
   ⟨"rfc3280.GeneralSubtrees", Rfc3280.GeneralSubtrees, "rfc5280.GeneralSubtrees", Rfc5280.GeneralSubtrees⟩,
   ⟨"rfc3280.NameConstraints", Rfc3280.NameConstraints, "rfc5280.NameConstraints", Rfc5280.NameConstraints⟩,
   ⟨"rfc3280.AccessDescription", Rfc3280.AccessDescription, "rfc5280.AccessDescription", Rfc5280.AccessDescription⟩,
   ⟨"rfc3280.AuthorityInfoAccessSyntax", Rfc3280.AuthorityInfoAccessSyntax, "rfc5280.AuthorityInfoAccessSyntax", Rfc5280.AuthorityInfoAccessSyntax⟩,
   ⟨"rfc3280.CPSuri", Rfc3280.CPSuri, "rfc5280.CPSuri", Rfc5280.CPSuri⟩,
   ⟨"rfc3280.DisplayText", Rfc3280.DisplayText, "rfc5280.DisplayText", Rfc5280.DisplayText⟩,
   ⟨"rfc3280.NoticeReference", Rfc3280.NoticeReference, "rfc5280.NoticeReference", Rfc5280.NoticeReference⟩,
   ⟨"rfc3280.UserNotice", Rfc3280.UserNotice, "rfc5280.UserNotice", Rfc5280.UserNotice⟩,
   ⟨"rfc3280.PrivateKeyUsagePeriod", Rfc3280.PrivateKeyUsagePeriod, "rfc5280.PrivateKeyUsagePeriod", Rfc5280.PrivateKeyUsagePeriod⟩,
   ⟨"rfc3280.CertificateIssuer", Rfc3280.CertificateIssuer, "rfc5280.CertificateIssuer", Rfc5280.CertificateIssuer⟩,
   ⟨"rfc3280.InvalidityDate", Rfc3280.InvalidityDate, "rfc5280.InvalidityDate", Rfc5280.InvalidityDate⟩,
   ⟨"rfc3280.SubjectInfoAccessSyntax", Rfc3280.SubjectInfoAccessSyntax, "rfc5280.SubjectInfoAccessSyntax", Rfc5280.SubjectInfoAccessSyntax⟩,
   ⟨"rfc3280.KeyUsage", Rfc3280.KeyUsage, "rfc5280.KeyUsage", Rfc5280.KeyUsage⟩,
   ⟨"rfc3280.PolicyConstraints", Rfc3280.PolicyConstraints, "rfc5280.PolicyConstraints", Rfc5280.PolicyConstraints⟩,
   ⟨"rfc3280.SubjectKeyIdentifier", Rfc3280.SubjectKeyIdentifier, "rfc5280.SubjectKeyIdentifier", Rfc5280.SubjectKeyIdentifier⟩,
   ⟨"rfc3280.IssuingDistributionPoint", Rfc3280.IssuingDistributionPoint, "rfc5280.IssuingDistributionPoint", Rfc5280.IssuingDistributionPoint⟩,
   ⟨"rfc2459.X520name", Rfc2459.X520name, "rfc5280.X520name", Rfc5280.X520name⟩,
   ⟨"rfc2459.X520CommonName", Rfc2459.X520CommonName, "rfc5280.X520CommonName", Rfc5280.X520CommonName⟩,
   ⟨"rfc2459.X520LocalityName", Rfc2459.X520LocalityName, "rfc5280.X520LocalityName", Rfc5280.X520LocalityName⟩,
   ⟨"rfc2459.X520StateOrProvinceName", Rfc2459.X520StateOrProvinceName, "rfc5280.X520StateOrProvinceName", Rfc5280.X520StateOrProvinceName⟩,
   ⟨"rfc2459.X520OrganizationName", Rfc2459.X520OrganizationName, "rfc5280.X520OrganizationName", Rfc5280.X520OrganizationName⟩,
   ⟨"rfc2459.X520OrganizationalUnitName", Rfc2459.X520OrganizationalUnitName, "rfc5280.X520OrganizationalUnitName", Rfc5280.X520OrganizationalUnitName⟩,
   ⟨"rfc2459.X520Title", Rfc2459.X520Title, "rfc5280.X520Title", Rfc5280.X520Title⟩,
   ⟨"rfc2459.X520dnQualifier", Rfc2459.X520dnQualifier, "rfc5280.X520dnQualifier", Rfc5280.X520dnQualifier⟩,
   ⟨"rfc2459.X520countryName", Rfc2459.X520countryName, "rfc5280.X520countryName", Rfc5280.X520countryName⟩,
   ⟨"rfc2459.AlgorithmIdentifier", Rfc2459.AlgorithmIdentifier, "rfc5280.AlgorithmIdentifier", Rfc5280.AlgorithmIdentifier⟩,
   ⟨"rfc2459.TerminalType", Rfc2459.TerminalType, "rfc5280.TerminalType", Rfc5280.TerminalType⟩,
   ⟨"rfc2459.PDSParameter", Rfc2459.PDSParameter, "rfc5280.PDSParameter", Rfc5280.PDSParameter⟩,
   ⟨"rfc2459.LocalPostalAttributes", Rfc2459.LocalPostalAttributes, "rfc5280.LocalPostalAttributes", Rfc5280.LocalPostalAttributes⟩,
   ⟨"rfc2459.UniquePostalName", Rfc2459.UniquePostalName, "rfc5280.UniquePostalName", Rfc5280.UniquePostalName⟩,
   ⟨"rfc2459.PosteRestanteAddress", Rfc2459.PosteRestanteAddress, "rfc5280.PosteRestanteAddress", Rfc5280.PosteRestanteAddress⟩,
   ⟨"rfc2459.PostOfficeBoxAddress", Rfc2459.PostOfficeBoxAddress, "rfc5280.PostOfficeBoxAddress", Rfc5280.PostOfficeBoxAddress⟩,
   ⟨"rfc2459.StreetAddress", Rfc2459.StreetAddress, "rfc5280.StreetAddress", Rfc5280.StreetAddress⟩,
   ⟨"rfc2459.UnformattedPostalAddress", Rfc2459.UnformattedPostalAddress, "rfc5280.UnformattedPostalAddress", Rfc5280.UnformattedPostalAddress⟩,
   ⟨"rfc2459.PhysicalDeliveryOfficeName", Rfc2459.PhysicalDeliveryOfficeName, "rfc5280.PhysicalDeliveryOfficeName", Rfc5280.PhysicalDeliveryOfficeName⟩,
   ⟨"rfc2459.PhysicalDeliveryOfficeNumber", Rfc2459.PhysicalDeliveryOfficeNumber, "rfc5280.PhysicalDeliveryOfficeNumber", Rfc5280.PhysicalDeliveryOfficeNumber⟩,
   ⟨"rfc2459.ExtensionORAddressComponents", Rfc2459.ExtensionORAddressComponents, "rfc5280.ExtensionORAddressComponents", Rfc5280.ExtensionORAddressComponents⟩,
   ⟨"rfc2459.PhysicalDeliveryPersonalName", Rfc2459.PhysicalDeliveryPersonalName, "rfc5280.PhysicalDeliveryPersonalName", Rfc5280.PhysicalDeliveryPersonalName⟩,
   ⟨"rfc2459.PhysicalDeliveryOrganizationName", Rfc2459.PhysicalDeliveryOrganizationName, "rfc5280.PhysicalDeliveryOrganizationName", Rfc5280.PhysicalDeliveryOrganizationName⟩,
   ⟨"rfc2459.ExtensionPhysicalDeliveryAddressComponents", Rfc2459.ExtensionPhysicalDeliveryAddressComponents, "rfc5280.ExtensionPhysicalDeliveryAddressComponents", Rfc5280.ExtensionPhysicalDeliveryAddressComponents⟩,
   ⟨"rfc2459.PostalCode", Rfc2459.PostalCode, "rfc5280.PostalCode", Rfc5280.PostalCode⟩,
   ⟨"rfc2459.PhysicalDeliveryCountryName", Rfc2459.PhysicalDeliveryCountryName, "rfc5280.PhysicalDeliveryCountryName", Rfc5280.PhysicalDeliveryCountryName⟩,
   ⟨"rfc2459.PDSName", Rfc2459.PDSName, "rfc5280.PDSName", Rfc5280.PDSName⟩,
   ⟨"rfc2459.TeletexOrganizationalUnitName", Rfc2459.TeletexOrganizationalUnitName, "rfc5280.TeletexOrganizationalUnitName", Rfc5280.TeletexOrganizationalUnitName⟩,
   ⟨"rfc2459.TeletexOrganizationalUnitNames", Rfc2459.TeletexOrganizationalUnitNames, "rfc5280.TeletexOrganizationalUnitNames", Rfc5280.TeletexOrganizationalUnitNames⟩,
   ⟨"rfc2459.TeletexOrganizationName", Rfc2459.TeletexOrganizationName, "rfc5280.TeletexOrganizationName", Rfc5280.TeletexOrganizationName⟩,
   ⟨"rfc2459.TeletexCommonName", Rfc2459.TeletexCommonName, "rfc5280.TeletexCommonName", Rfc5280.TeletexCommonName⟩,
   ⟨"rfc2459.CommonName", Rfc2459.CommonName, "rfc5280.CommonName", Rfc5280.CommonName⟩,
   ⟨"rfc2459.ExtensionAttribute", Rfc2459.ExtensionAttribute, "rfc5280.ExtensionAttribute", Rfc5280.ExtensionAttribute⟩,
   ⟨"rfc2459.ExtensionAttributes", Rfc2459.ExtensionAttributes, "rfc5280.ExtensionAttributes", Rfc5280.ExtensionAttributes⟩,
   ⟨"rfc2459.BuiltInDomainDefinedAttribute", Rfc2459.BuiltInDomainDefinedAttribute, "rfc5280.BuiltInDomainDefinedAttribute", Rfc5280.BuiltInDomainDefinedAttribute⟩,
   ⟨"rfc2459.BuiltInDomainDefinedAttributes", Rfc2459.BuiltInDomainDefinedAttributes, "rfc5280.BuiltInDomainDefinedAttributes", Rfc5280.BuiltInDomainDefinedAttributes⟩,
   ⟨"rfc2459.OrganizationalUnitName", Rfc2459.OrganizationalUnitName, "rfc5280.OrganizationalUnitName", Rfc5280.OrganizationalUnitName⟩,
   ⟨"rfc2459.OrganizationalUnitNames", Rfc2459.OrganizationalUnitNames, "rfc5280.OrganizationalUnitNames", Rfc5280.OrganizationalUnitNames⟩,
   ⟨"rfc2459.NumericUserIdentifier", Rfc2459.NumericUserIdentifier, "rfc5280.NumericUserIdentifier", Rfc5280.NumericUserIdentifier⟩,
   ⟨"rfc2459.OrganizationName", Rfc2459.OrganizationName, "rfc5280.OrganizationName", Rfc5280.OrganizationName⟩,
   ⟨"rfc2459.PrivateDomainName", Rfc2459.PrivateDomainName, "rfc5280.PrivateDomainName", Rfc5280.PrivateDomainName⟩,
   ⟨"rfc2459.TerminalIdentifier", Rfc2459.TerminalIdentifier, "rfc5280.TerminalIdentifier", Rfc5280.TerminalIdentifier⟩,
   ⟨"rfc2459.X121Address", Rfc2459.X121Address, "rfc5280.X121Address", Rfc5280.X121Address⟩,
   ⟨"rfc2459.NetworkAddress", Rfc2459.NetworkAddress, "rfc5280.NetworkAddress", Rfc5280.NetworkAddress⟩,
   ⟨"rfc2459.AdministrationDomainName", Rfc2459.AdministrationDomainName, "rfc5280.AdministrationDomainName", Rfc5280.AdministrationDomainName⟩,
   ⟨"rfc2459.CountryName", Rfc2459.CountryName, "rfc5280.CountryName", Rfc5280.CountryName⟩,
   ⟨"rfc2459.InvalidityDate", Rfc2459.InvalidityDate, "rfc5280.InvalidityDate", Rfc5280.InvalidityDate⟩,
   ⟨"rfc2459.HoldInstructionCode", Rfc2459.HoldInstructionCode, "rfc5280.HoldInstructionCode", Rfc5280.HoldInstructionCode⟩,
   ⟨"rfc2459.CRLReason", Rfc2459.CRLReason, "rfc5280.CRLReason", Rfc5280.CRLReason⟩,
   ⟨"rfc2459.CRLNumber", Rfc2459.CRLNumber, "rfc5280.CRLNumber", Rfc5280.CRLNumber⟩,
   ⟨"rfc2459.BaseCRLNumber", Rfc2459.BaseCRLNumber, "rfc5280.BaseCRLNumber", Rfc5280.BaseCRLNumber⟩,
   ⟨"rfc2459.KeyPurposeId", Rfc2459.KeyPurposeId, "rfc5280.KeyPurposeId", Rfc5280.KeyPurposeId⟩,
   ⟨"rfc2459.ExtKeyUsageSyntax", Rfc2459.ExtKeyUsageSyntax, "rfc5280.ExtKeyUsageSyntax", Rfc5280.ExtKeyUsageSyntax⟩,
   ⟨"rfc2459.ReasonFlags", Rfc2459.ReasonFlags, "rfc5280.ReasonFlags", Rfc5280.ReasonFlags⟩,
   ⟨"rfc2459.SkipCerts", Rfc2459.SkipCerts, "rfc5280.SkipCerts", Rfc5280.SkipCerts⟩,
   ⟨"rfc2459.PolicyConstraints", Rfc2459.PolicyConstraints, "rfc5280.PolicyConstraints", Rfc5280.PolicyConstraints⟩,
   ⟨"rfc2459.BasicConstraints", Rfc2459.BasicConstraints, "rfc5280.BasicConstraints", Rfc5280.BasicConstraints⟩,
   ⟨"rfc2459.BaseDistance", Rfc2459.BaseDistance, "rfc5280.BaseDistance", Rfc5280.BaseDistance⟩,
   ⟨"rfc2459.DisplayText", Rfc2459.DisplayText, "rfc5280.DisplayText", Rfc5280.DisplayText⟩,
   ⟨"rfc2459.NoticeReference", Rfc2459.NoticeReference, "rfc5280.NoticeReference", Rfc5280.NoticeReference⟩,
   ⟨"rfc2459.UserNotice", Rfc2459.UserNotice, "rfc5280.UserNotice", Rfc5280.UserNotice⟩,
   ⟨"rfc2459.CPSuri", Rfc2459.CPSuri, "rfc5280.CPSuri", Rfc5280.CPSuri⟩,
   ⟨"rfc2459.PolicyQualifierId", Rfc2459.PolicyQualifierId, "rfc5280.PolicyQualifierId", Rfc5280.PolicyQualifierId⟩,
   ⟨"rfc2459.CertPolicyId", Rfc2459.CertPolicyId, "rfc5280.CertPolicyId", Rfc5280.CertPolicyId⟩,
   ⟨"rfc2459.PolicyQualifierInfo", Rfc2459.PolicyQualifierInfo, "rfc5280.PolicyQualifierInfo", Rfc5280.PolicyQualifierInfo⟩,
   ⟨"rfc2459.PolicyInformation", Rfc2459.PolicyInformation, "rfc5280.PolicyInformation", Rfc5280.PolicyInformation⟩,
   ⟨"rfc2459.CertificatePolicies", Rfc2459.CertificatePolicies, "rfc5280.CertificatePolicies", Rfc5280.CertificatePolicies⟩,
   ⟨"rfc2459.PolicyMappings", Rfc2459.PolicyMappings, "rfc5280.PolicyMappings", Rfc5280.PolicyMappings⟩,
   ⟨"rfc2459.PrivateKeyUsagePeriod", Rfc2459.PrivateKeyUsagePeriod, "rfc5280.PrivateKeyUsagePeriod", Rfc5280.PrivateKeyUsagePeriod⟩,
   ⟨"rfc2459.KeyUsage", Rfc2459.KeyUsage, "rfc5280.KeyUsage", Rfc5280.KeyUsage⟩,
   ⟨"rfc2459.KeyIdentifier", Rfc2459.KeyIdentifier, "rfc5280.KeyIdentifier", Rfc5280.KeyIdentifier⟩,
   ⟨"rfc2459.SubjectKeyIdentifier", Rfc2459.SubjectKeyIdentifier, "rfc5280.SubjectKeyIdentifier", Rfc5280.SubjectKeyIdentifier⟩,
   ⟨"rfc2459.AttributeValue", Rfc2459.AttributeValue, "rfc5280.AttributeValue", Rfc5280.AttributeValue⟩,
   ⟨"rfc2459.AttributeType", Rfc2459.AttributeType, "rfc5280.AttributeType", Rfc5280.AttributeType⟩,
   ⟨"rfc2459.AttributeTypeAndValue", Rfc2459.AttributeTypeAndValue, "rfc5280.AttributeTypeAndValue", Rfc5280.AttributeTypeAndValue⟩,
   ⟨"rfc2459.Attribute", Rfc2459.Attribute, "rfc5280.Attribute", Rfc5280.Attribute⟩,
   ⟨"rfc2459.SubjectDirectoryAttributes", Rfc2459.SubjectDirectoryAttributes, "rfc5280.SubjectDirectoryAttributes", Rfc5280.SubjectDirectoryAttributes⟩,
   ⟨"rfc2459.RelativeDistinguishedName", Rfc2459.RelativeDistinguishedName, "rfc5280.RelativeDistinguishedName", Rfc5280.RelativeDistinguishedName⟩,
   ⟨"rfc2459.RDNSequence", Rfc2459.RDNSequence, "rfc5280.RDNSequence", Rfc5280.RDNSequence⟩,
   ⟨"rfc2459.Name", Rfc2459.Name, "rfc5280.Name", Rfc5280.Name⟩,
   ⟨"rfc2459.CertificateSerialNumber", Rfc2459.CertificateSerialNumber, "rfc5280.CertificateSerialNumber", Rfc5280.CertificateSerialNumber⟩,
   ⟨"rfc2459.AnotherName", Rfc2459.AnotherName, "rfc5280.AnotherName", Rfc5280.AnotherName⟩,
   ⟨"rfc2459.Extension", Rfc2459.Extension, "rfc5280.Extension", Rfc5280.Extension⟩,
   ⟨"rfc2459.Extensions", Rfc2459.Extensions, "rfc5280.Extensions", Rfc5280.Extensions⟩,
   ⟨"rfc2459.SubjectPublicKeyInfo", Rfc2459.SubjectPublicKeyInfo, "rfc5280.SubjectPublicKeyInfo", Rfc5280.SubjectPublicKeyInfo⟩,
   ⟨"rfc2459.UniqueIdentifier", Rfc2459.UniqueIdentifier, "rfc5280.UniqueIdentifier", Rfc5280.UniqueIdentifier⟩,
   ⟨"rfc2459.Time", Rfc2459.Time, "rfc5280.Time", Rfc5280.Time⟩,
   ⟨"rfc2459.Validity", Rfc2459.Validity, "rfc5280.Validity", Rfc5280.Validity⟩,
   ⟨"rfc2459.Version", Rfc2459.Version, "rfc5280.Version", Rfc5280.Version⟩,
   ⟨"rfc2459.TBSCertificate", Rfc2459.TBSCertificate, "rfc5280.TBSCertificate", Rfc5280.TBSCertificate⟩,
   ⟨"rfc2459.Certificate", Rfc2459.Certificate, "rfc5280.Certificate", Rfc5280.Certificate⟩,
   ⟨"rfc2459.TBSCertList", Rfc2459.TBSCertList, "rfc5280.TBSCertList", Rfc5280.TBSCertList⟩,
   ⟨"rfc2459.CertificateList", Rfc2459.CertificateList, "rfc5280.CertificateList", Rfc5280.CertificateList⟩,
   ⟨"rfc2315.Attribute", Rfc2315.Attribute, "rfc3852.Attribute", Rfc3852.Attribute⟩,
   ⟨"rfc2315.ContentType", Rfc2315.ContentType, "rfc3852.ContentType", Rfc3852.ContentType⟩,
   ⟨"rfc2315.ContentEncryptionAlgorithmIdentifier", Rfc2315.ContentEncryptionAlgorithmIdentifier, "rfc3852.ContentEncryptionAlgorithmIdentifier", Rfc3852.ContentEncryptionAlgorithmIdentifier⟩,
   ⟨"rfc2315.EncryptedContent", Rfc2315.EncryptedContent, "rfc3852.EncryptedContent", Rfc3852.EncryptedContent⟩,
   ⟨"rfc2315.EncryptedContentInfo", Rfc2315.EncryptedContentInfo, "rfc3852.EncryptedContentInfo", Rfc3852.EncryptedContentInfo⟩,
   ⟨"rfc2315.EncryptedData", Rfc2315.EncryptedData, "rfc3852.EncryptedData", Rfc3852.EncryptedData⟩,
   ⟨"rfc2315.DigestAlgorithmIdentifier", Rfc2315.DigestAlgorithmIdentifier, "rfc3852.DigestAlgorithmIdentifier", Rfc3852.DigestAlgorithmIdentifier⟩,
   ⟨"rfc2315.DigestAlgorithmIdentifiers", Rfc2315.DigestAlgorithmIdentifiers, "rfc3852.DigestAlgorithmIdentifiers", Rfc3852.DigestAlgorithmIdentifiers⟩,
   ⟨"rfc2315.Digest", Rfc2315.Digest, "rfc3852.Digest", Rfc3852.Digest⟩,
   ⟨"rfc2315.IssuerAndSerialNumber", Rfc2315.IssuerAndSerialNumber, "rfc3852.IssuerAndSerialNumber", Rfc3852.IssuerAndSerialNumber⟩,
   ⟨"rfc2315.KeyEncryptionAlgorithmIdentifier", Rfc2315.KeyEncryptionAlgorithmIdentifier, "rfc3852.KeyEncryptionAlgorithmIdentifier", Rfc3852.KeyEncryptionAlgorithmIdentifier⟩,
   ⟨"rfc2315.EncryptedKey", Rfc2315.EncryptedKey, "rfc3852.EncryptedKey", Rfc3852.EncryptedKey⟩,
   ⟨"rfc2315.RecipientInfo", Rfc2315.RecipientInfo, "rfc3852.RecipientInfo", Rfc3852.RecipientInfo⟩,
   ⟨"rfc2315.RecipientInfos", Rfc2315.RecipientInfos, "rfc3852.RecipientInfos", Rfc3852.RecipientInfos⟩,
   ⟨"rfc2315.ExtendedCertificateInfo", Rfc2315.ExtendedCertificateInfo, "rfc3852.ExtendedCertificateInfo", Rfc3852.ExtendedCertificateInfo⟩,
   ⟨"rfc2315.SignatureAlgorithmIdentifier", Rfc2315.SignatureAlgorithmIdentifier, "rfc3852.SignatureAlgorithmIdentifier", Rfc3852.SignatureAlgorithmIdentifier⟩,
   ⟨"rfc2315.Signature", Rfc2315.Signature, "rfc3852.Signature", Rfc3852.Signature⟩,
   ⟨"rfc2315.ExtendedCertificate", Rfc2315.ExtendedCertificate, "rfc3852.ExtendedCertificate", Rfc3852.ExtendedCertificate⟩,
   ⟨"rfc2315.ExtendedCertificateOrCertificate", Rfc2315.ExtendedCertificateOrCertificate, "rfc3852.ExtendedCertificateOrCertificate", Rfc3852.ExtendedCertificateOrCertificate⟩,
   ⟨"rfc2315.SignerInfo", Rfc2315.SignerInfo, "rfc3852.SignerInfo", Rfc3852.SignerInfo⟩,
   ⟨"rfc2315.SignerInfos", Rfc2315.SignerInfos, "rfc3852.SignerInfos", Rfc3852.SignerInfos⟩,
   ⟨"rfc2315.EnvelopedData", Rfc2315.EnvelopedData, "rfc3852.EnvelopedData", Rfc3852.EnvelopedData⟩,
   ⟨"rfc3852.AttributeValue", Rfc3852.AttributeValue, "rfc5652.AttributeValue", Rfc5652.AttributeValue⟩,
   ⟨"rfc3852.Attribute", Rfc3852.Attribute, "rfc5652.Attribute", Rfc5652.Attribute⟩,
   ⟨"rfc3852.SignedAttributes", Rfc3852.SignedAttributes, "rfc5652.SignedAttributes", Rfc5652.SignedAttributes⟩,
   ⟨"rfc3852.OtherRevocationInfoFormat", Rfc3852.OtherRevocationInfoFormat, "rfc5652.OtherRevocationInfoFormat", Rfc5652.OtherRevocationInfoFormat⟩,
   ⟨"rfc3852.RevocationInfoChoice", Rfc3852.RevocationInfoChoice, "rfc5652.RevocationInfoChoice", Rfc5652.RevocationInfoChoice⟩,
   ⟨"rfc3852.RevocationInfoChoices", Rfc3852.RevocationInfoChoices, "rfc5652.RevocationInfoChoices", Rfc5652.RevocationInfoChoices⟩,
   ⟨"rfc3852.OtherKeyAttribute", Rfc3852.OtherKeyAttribute, "rfc5652.OtherKeyAttribute", Rfc5652.OtherKeyAttribute⟩,
   ⟨"rfc3852.KeyEncryptionAlgorithmIdentifier", Rfc3852.KeyEncryptionAlgorithmIdentifier, "rfc5652.KeyEncryptionAlgorithmIdentifier", Rfc5652.KeyEncryptionAlgorithmIdentifier⟩,
   ⟨"rfc3852.EncryptedKey", Rfc3852.EncryptedKey, "rfc5652.EncryptedKey", Rfc5652.EncryptedKey⟩,
   ⟨"rfc3852.CMSVersion", Rfc3852.CMSVersion, "rfc5652.CMSVersion", Rfc5652.CMSVersion⟩,
   ⟨"rfc3852.KEKIdentifier", Rfc3852.KEKIdentifier, "rfc5652.KEKIdentifier", Rfc5652.KEKIdentifier⟩,
   ⟨"rfc3852.KEKRecipientInfo", Rfc3852.KEKRecipientInfo, "rfc5652.KEKRecipientInfo", Rfc5652.KEKRecipientInfo⟩,
   ⟨"rfc3852.KeyDerivationAlgorithmIdentifier", Rfc3852.KeyDerivationAlgorithmIdentifier, "rfc5652.KeyDerivationAlgorithmIdentifier", Rfc5652.KeyDerivationAlgorithmIdentifier⟩,
   ⟨"rfc3852.PasswordRecipientInfo", Rfc3852.PasswordRecipientInfo, "rfc5652.PasswordRecipientInfo", Rfc5652.PasswordRecipientInfo⟩,
   ⟨"rfc3852.OtherRecipientInfo", Rfc3852.OtherRecipientInfo, "rfc5652.OtherRecipientInfo", Rfc5652.OtherRecipientInfo⟩,
   ⟨"rfc3852.IssuerAndSerialNumber", Rfc3852.IssuerAndSerialNumber, "rfc5652.IssuerAndSerialNumber", Rfc5652.IssuerAndSerialNumber⟩,
   ⟨"rfc3852.SubjectKeyIdentifier", Rfc3852.SubjectKeyIdentifier, "rfc5652.SubjectKeyIdentifier", Rfc5652.SubjectKeyIdentifier⟩,
   ⟨"rfc3852.RecipientKeyIdentifier", Rfc3852.RecipientKeyIdentifier, "rfc5652.RecipientKeyIdentifier", Rfc5652.RecipientKeyIdentifier⟩,
   ⟨"rfc3852.KeyAgreeRecipientIdentifier", Rfc3852.KeyAgreeRecipientIdentifier, "rfc5652.KeyAgreeRecipientIdentifier", Rfc5652.KeyAgreeRecipientIdentifier⟩,
   ⟨"rfc3852.RecipientEncryptedKey", Rfc3852.RecipientEncryptedKey, "rfc5652.RecipientEncryptedKey", Rfc5652.RecipientEncryptedKey⟩,
   ⟨"rfc3852.RecipientEncryptedKeys", Rfc3852.RecipientEncryptedKeys, "rfc5652.RecipientEncryptedKeys", Rfc5652.RecipientEncryptedKeys⟩,
   ⟨"rfc3852.UserKeyingMaterial", Rfc3852.UserKeyingMaterial, "rfc5652.UserKeyingMaterial", Rfc5652.UserKeyingMaterial⟩,
   ⟨"rfc3852.OriginatorPublicKey", Rfc3852.OriginatorPublicKey, "rfc5652.OriginatorPublicKey", Rfc5652.OriginatorPublicKey⟩,
   ⟨"rfc3852.OriginatorIdentifierOrKey", Rfc3852.OriginatorIdentifierOrKey, "rfc5652.OriginatorIdentifierOrKey", Rfc5652.OriginatorIdentifierOrKey⟩,
   ⟨"rfc3852.KeyAgreeRecipientInfo", Rfc3852.KeyAgreeRecipientInfo, "rfc5652.KeyAgreeRecipientInfo", Rfc5652.KeyAgreeRecipientInfo⟩,
   ⟨"rfc3852.RecipientIdentifier", Rfc3852.RecipientIdentifier, "rfc5652.RecipientIdentifier", Rfc5652.RecipientIdentifier⟩,
   ⟨"rfc3852.KeyTransRecipientInfo", Rfc3852.KeyTransRecipientInfo, "rfc5652.KeyTransRecipientInfo", Rfc5652.KeyTransRecipientInfo⟩,
   ⟨"rfc3852.RecipientInfo", Rfc3852.RecipientInfo, "rfc5652.RecipientInfo", Rfc5652.RecipientInfo⟩,
   ⟨"rfc3852.RecipientInfos", Rfc3852.RecipientInfos, "rfc5652.RecipientInfos", Rfc5652.RecipientInfos⟩,
   ⟨"rfc3852.DigestAlgorithmIdentifier", Rfc3852.DigestAlgorithmIdentifier, "rfc5652.DigestAlgorithmIdentifier", Rfc5652.DigestAlgorithmIdentifier⟩,
   ⟨"rfc3852.Signature", Rfc3852.Signature, "rfc5652.Signature", Rfc5652.Signature⟩,
   ⟨"rfc3852.SignerIdentifier", Rfc3852.SignerIdentifier, "rfc5652.SignerIdentifier", Rfc5652.SignerIdentifier⟩,
   ⟨"rfc3852.UnprotectedAttributes", Rfc3852.UnprotectedAttributes, "rfc5652.UnprotectedAttributes", Rfc5652.UnprotectedAttributes⟩,
   ⟨"rfc3852.ContentType", Rfc3852.ContentType, "rfc5652.ContentType", Rfc5652.ContentType⟩,
   ⟨"rfc3852.EncryptedContent", Rfc3852.EncryptedContent, "rfc5652.EncryptedContent", Rfc5652.EncryptedContent⟩,
   ⟨"rfc3852.ContentEncryptionAlgorithmIdentifier", Rfc3852.ContentEncryptionAlgorithmIdentifier, "rfc5652.ContentEncryptionAlgorithmIdentifier", Rfc5652.ContentEncryptionAlgorithmIdentifier⟩,
   ⟨"rfc3852.EncryptedContentInfo", Rfc3852.EncryptedContentInfo, "rfc5652.EncryptedContentInfo", Rfc5652.EncryptedContentInfo⟩,
   ⟨"rfc3852.EncryptedData", Rfc3852.EncryptedData, "rfc5652.EncryptedData", Rfc5652.EncryptedData⟩,
   ⟨"rfc3852.DigestAlgorithmIdentifiers", Rfc3852.DigestAlgorithmIdentifiers, "rfc5652.DigestAlgorithmIdentifiers", Rfc5652.DigestAlgorithmIdentifiers⟩,
   ⟨"rfc3852.EncapsulatedContentInfo", Rfc3852.EncapsulatedContentInfo, "rfc5652.EncapsulatedContentInfo", Rfc5652.EncapsulatedContentInfo⟩,
   ⟨"rfc3852.Digest", Rfc3852.Digest, "rfc5652.Digest", Rfc5652.Digest⟩,
   ⟨"rfc3852.DigestedData", Rfc3852.DigestedData, "rfc5652.DigestedData", Rfc5652.DigestedData⟩,
   ⟨"rfc3852.ContentInfo", Rfc3852.ContentInfo, "rfc5652.ContentInfo", Rfc5652.ContentInfo⟩,
   ⟨"rfc3852.UnauthAttributes", Rfc3852.UnauthAttributes, "rfc5652.UnauthAttributes", Rfc5652.UnauthAttributes⟩,
   ⟨"rfc3852.ExtendedCertificateInfo", Rfc3852.ExtendedCertificateInfo, "rfc5652.ExtendedCertificateInfo", Rfc5652.ExtendedCertificateInfo⟩,
   ⟨"rfc3852.SignatureAlgorithmIdentifier", Rfc3852.SignatureAlgorithmIdentifier, "rfc5652.SignatureAlgorithmIdentifier", Rfc5652.SignatureAlgorithmIdentifier⟩,
   ⟨"rfc3852.ExtendedCertificate", Rfc3852.ExtendedCertificate, "rfc5652.ExtendedCertificate", Rfc5652.ExtendedCertificate⟩,
   ⟨"rfc3852.OtherCertificateFormat", Rfc3852.OtherCertificateFormat, "rfc5652.OtherCertificateFormat", Rfc5652.OtherCertificateFormat⟩,
   ⟨"rfc3852.AttributeCertificateV2", Rfc3852.AttributeCertificateV2, "rfc5652.AttributeCertificateV2", Rfc5652.AttributeCertificateV2⟩,
   ⟨"rfc3852.AttCertVersionV1", Rfc3852.AttCertVersionV1, "rfc5652.AttCertVersionV1", Rfc5652.AttCertVersionV1⟩,
   ⟨"rfc3852.AttributeCertificateInfoV1", Rfc3852.AttributeCertificateInfoV1, "rfc5652.AttributeCertificateInfoV1", Rfc5652.AttributeCertificateInfoV1⟩,
   ⟨"rfc3852.AttributeCertificateV1", Rfc3852.AttributeCertificateV1, "rfc5652.AttributeCertificateV1", Rfc5652.AttributeCertificateV1⟩,
   ⟨"rfc3852.CertificateChoices", Rfc3852.CertificateChoices, "rfc5652.CertificateChoices", Rfc5652.CertificateChoices⟩,
   ⟨"rfc3852.CertificateSet", Rfc3852.CertificateSet, "rfc5652.CertificateSet", Rfc5652.CertificateSet⟩,
   ⟨"rfc3852.MessageAuthenticationCode", Rfc3852.MessageAuthenticationCode, "rfc5652.MessageAuthenticationCode", Rfc5652.MessageAuthenticationCode⟩,
   ⟨"rfc3852.UnsignedAttributes", Rfc3852.UnsignedAttributes, "rfc5652.UnsignedAttributes", Rfc5652.UnsignedAttributes⟩,
   ⟨"rfc3852.SignatureValue", Rfc3852.SignatureValue, "rfc5652.SignatureValue", Rfc5652.SignatureValue⟩,
   ⟨"rfc3852.SignerInfo", Rfc3852.SignerInfo, "rfc5652.SignerInfo", Rfc5652.SignerInfo⟩,
   ⟨"rfc3852.SignerInfos", Rfc3852.SignerInfos, "rfc5652.SignerInfos", Rfc5652.SignerInfos⟩,
   ⟨"rfc3852.SignedData", Rfc3852.SignedData, "rfc5652.SignedData", Rfc5652.SignedData⟩,
   ⟨"rfc3852.MessageAuthenticationCodeAlgorithm", Rfc3852.MessageAuthenticationCodeAlgorithm, "rfc5652.MessageAuthenticationCodeAlgorithm", Rfc5652.MessageAuthenticationCodeAlgorithm⟩,
   ⟨"rfc3852.MessageDigest", Rfc3852.MessageDigest, "rfc5652.MessageDigest", Rfc5652.MessageDigest⟩,
   ⟨"rfc3852.Time", Rfc3852.Time, "rfc5652.Time", Rfc5652.Time⟩,
   ⟨"rfc3852.OriginatorInfo", Rfc3852.OriginatorInfo, "rfc5652.OriginatorInfo", Rfc5652.OriginatorInfo⟩,
   ⟨"rfc3852.AuthAttributes", Rfc3852.AuthAttributes, "rfc5652.AuthAttributes", Rfc5652.AuthAttributes⟩,
   ⟨"rfc3852.AuthenticatedData", Rfc3852.AuthenticatedData, "rfc5652.AuthenticatedData", Rfc5652.AuthenticatedData⟩,
   ⟨"rfc3852.EnvelopedData", Rfc3852.EnvelopedData, "rfc5652.EnvelopedData", Rfc5652.EnvelopedData⟩,
   ⟨"rfc3852.Countersignature", Rfc3852.Countersignature, "rfc5652.Countersignature", Rfc5652.Countersignature⟩,
   ⟨"rfc3852.ExtendedCertificateOrCertificate", Rfc3852.ExtendedCertificateOrCertificate, "rfc5652.ExtendedCertificateOrCertificate", Rfc5652.ExtendedCertificateOrCertificate⟩,
   ⟨"rfc3852.SigningTime", Rfc3852.SigningTime, "rfc5652.SigningTime", Rfc5652.SigningTime⟩,
   ⟨"rfc2315.Attribute", Rfc2315.Attribute, "rfc5652.Attribute", Rfc5652.Attribute⟩,
   ⟨"rfc2315.ContentType", Rfc2315.ContentType, "rfc5652.ContentType", Rfc5652.ContentType⟩,
   ⟨"rfc2315.ContentEncryptionAlgorithmIdentifier", Rfc2315.ContentEncryptionAlgorithmIdentifier, "rfc5652.ContentEncryptionAlgorithmIdentifier", Rfc5652.ContentEncryptionAlgorithmIdentifier⟩,
   ⟨"rfc2315.EncryptedContent", Rfc2315.EncryptedContent, "rfc5652.EncryptedContent", Rfc5652.EncryptedContent⟩,
   ⟨"rfc2315.EncryptedContentInfo", Rfc2315.EncryptedContentInfo, "rfc5652.EncryptedContentInfo", Rfc5652.EncryptedContentInfo⟩,
   ⟨"rfc2315.EncryptedData", Rfc2315.EncryptedData, "rfc5652.EncryptedData", Rfc5652.EncryptedData⟩,
   ⟨"rfc2315.DigestAlgorithmIdentifier", Rfc2315.DigestAlgorithmIdentifier, "rfc5652.DigestAlgorithmIdentifier", Rfc5652.DigestAlgorithmIdentifier⟩,
   ⟨"rfc2315.DigestAlgorithmIdentifiers", Rfc2315.DigestAlgorithmIdentifiers, "rfc5652.DigestAlgorithmIdentifiers", Rfc5652.DigestAlgorithmIdentifiers⟩,
   ⟨"rfc2315.Digest", Rfc2315.Digest, "rfc5652.Digest", Rfc5652.Digest⟩,
   ⟨"rfc2315.IssuerAndSerialNumber", Rfc2315.IssuerAndSerialNumber, "rfc5652.IssuerAndSerialNumber", Rfc5652.IssuerAndSerialNumber⟩,
   ⟨"rfc2315.KeyEncryptionAlgorithmIdentifier", Rfc2315.KeyEncryptionAlgorithmIdentifier, "rfc5652.KeyEncryptionAlgorithmIdentifier", Rfc5652.KeyEncryptionAlgorithmIdentifier⟩,
   ⟨"rfc2315.EncryptedKey", Rfc2315.EncryptedKey, "rfc5652.EncryptedKey", Rfc5652.EncryptedKey⟩,
   ⟨"rfc2315.RecipientInfo", Rfc2315.RecipientInfo, "rfc5652.RecipientInfo", Rfc5652.RecipientInfo⟩,
   ⟨"rfc2315.RecipientInfos", Rfc2315.RecipientInfos, "rfc5652.RecipientInfos", Rfc5652.RecipientInfos⟩,
   ⟨"rfc2315.ExtendedCertificateInfo", Rfc2315.ExtendedCertificateInfo, "rfc5652.ExtendedCertificateInfo", Rfc5652.ExtendedCertificateInfo⟩,
   ⟨"rfc2315.SignatureAlgorithmIdentifier", Rfc2315.SignatureAlgorithmIdentifier, "rfc5652.SignatureAlgorithmIdentifier", Rfc5652.SignatureAlgorithmIdentifier⟩,
   ⟨"rfc2315.Signature", Rfc2315.Signature, "rfc5652.Signature", Rfc5652.Signature⟩,
   ⟨"rfc2315.ExtendedCertificate", Rfc2315.ExtendedCertificate, "rfc5652.ExtendedCertificate", Rfc5652.ExtendedCertificate⟩,
   ⟨"rfc2315.ExtendedCertificateOrCertificate", Rfc2315.ExtendedCertificateOrCertificate, "rfc5652.ExtendedCertificateOrCertificate", Rfc5652.ExtendedCertificateOrCertificate⟩,
   ⟨"rfc2315.SignerInfo", Rfc2315.SignerInfo, "rfc5652.SignerInfo", Rfc5652.SignerInfo⟩,
   ⟨"rfc2315.SignerInfos", Rfc2315.SignerInfos, "rfc5652.SignerInfos", Rfc5652.SignerInfos⟩,
   ⟨"rfc2315.EnvelopedData", Rfc2315.EnvelopedData, "rfc5652.EnvelopedData", Rfc5652.EnvelopedData⟩,
   ⟨"rfc2560.CRLReason", Rfc2560.CRLReason, "rfc6960.CRLReason", Rfc6960.CRLReason⟩,
   ⟨"rfc2560.AcceptableResponses", Rfc2560.AcceptableResponses, "rfc6960.AcceptableResponses", Rfc6960.AcceptableResponses⟩,
   ⟨"rfc2560.ArchiveCutoff", Rfc2560.ArchiveCutoff, "rfc6960.ArchiveCutoff", Rfc6960.ArchiveCutoff⟩,
   ⟨"rfc2560.UnknownInfo", Rfc2560.UnknownInfo, "rfc6960.UnknownInfo", Rfc6960.UnknownInfo⟩,
   ⟨"rfc2560.RevokedInfo", Rfc2560.RevokedInfo, "rfc6960.RevokedInfo", Rfc6960.RevokedInfo⟩,
   ⟨"rfc2560.CertID", Rfc2560.CertID, "rfc6960.CertID", Rfc6960.CertID⟩,
   ⟨"rfc2560.CertStatus", Rfc2560.CertStatus, "rfc6960.CertStatus", Rfc6960.CertStatus⟩,
   ⟨"rfc2560.SingleResponse", Rfc2560.SingleResponse, "rfc6960.SingleResponse", Rfc6960.SingleResponse⟩,
   ⟨"rfc2560.KeyHash", Rfc2560.KeyHash, "rfc6960.KeyHash", Rfc6960.KeyHash⟩,
   ⟨"rfc2560.ResponderID", Rfc2560.ResponderID, "rfc6960.ResponderID", Rfc6960.ResponderID⟩,
   ⟨"rfc2560.Version", Rfc2560.Version, "rfc6960.Version", Rfc6960.Version⟩,
   ⟨"rfc2560.ResponseData", Rfc2560.ResponseData, "rfc6960.ResponseData", Rfc6960.ResponseData⟩,
   ⟨"rfc2560.BasicOCSPResponse", Rfc2560.BasicOCSPResponse, "rfc6960.BasicOCSPResponse", Rfc6960.BasicOCSPResponse⟩,
   ⟨"rfc2560.ResponseBytes", Rfc2560.ResponseBytes, "rfc6960.ResponseBytes", Rfc6960.ResponseBytes⟩,
   ⟨"rfc2560.OCSPResponseStatus", Rfc2560.OCSPResponseStatus, "rfc6960.OCSPResponseStatus", Rfc6960.OCSPResponseStatus⟩,
   ⟨"rfc2560.OCSPResponse", Rfc2560.OCSPResponse, "rfc6960.OCSPResponse", Rfc6960.OCSPResponse⟩,
   ⟨"rfc2560.Request", Rfc2560.Request, "rfc6960.Request", Rfc6960.Request⟩,
   ⟨"rfc2560.Signature", Rfc2560.Signature, "rfc6960.Signature", Rfc6960.Signature⟩,
   ⟨"rfc2511.UTF8Pairs", Rfc2511.UTF8Pairs, "rfc4211.UTF8Pairs", Rfc4211.UTF8Pairs⟩,
   ⟨"rfc2511.ProtocolEncrKey", Rfc2511.ProtocolEncrKey, "rfc4211.ProtocolEncrKey", Rfc4211.ProtocolEncrKey⟩,
   ⟨"rfc2511.KeyGenParameters", Rfc2511.KeyGenParameters, "rfc4211.KeyGenParameters", Rfc4211.KeyGenParameters⟩,
   ⟨"rfc2511.EncryptedValue", Rfc2511.EncryptedValue, "rfc4211.EncryptedValue", Rfc4211.EncryptedValue⟩,
   ⟨"rfc2511.EncryptedKey", Rfc2511.EncryptedKey, "rfc4211.EncryptedKey", Rfc4211.EncryptedKey⟩,
   ⟨"rfc2511.PKIArchiveOptions", Rfc2511.PKIArchiveOptions, "rfc4211.PKIArchiveOptions", Rfc4211.PKIArchiveOptions⟩,
   ⟨"rfc2511.Authenticator", Rfc2511.Authenticator, "rfc4211.Authenticator", Rfc4211.Authenticator⟩,
   ⟨"rfc2511.RegToken", Rfc2511.RegToken, "rfc4211.RegToken", Rfc4211.RegToken⟩,
   ⟨"rfc2511.SubsequentMessage", Rfc2511.SubsequentMessage, "rfc4211.SubsequentMessage", Rfc4211.SubsequentMessage⟩,
   ⟨"rfc2511.POPOPrivKey", Rfc2511.POPOPrivKey, "rfc4211.POPOPrivKey", Rfc4211.POPOPrivKey⟩,
   ⟨"rfc2511.PBMParameter", Rfc2511.PBMParameter, "rfc4211.PBMParameter", Rfc4211.PBMParameter⟩,
   ⟨"rfc2511.PKMACValue", Rfc2511.PKMACValue, "rfc4211.PKMACValue", Rfc4211.PKMACValue⟩,
   ⟨"rfc2511.Controls", Rfc2511.Controls, "rfc4211.Controls", Rfc4211.Controls⟩,
   ⟨"rfc2511.OptionalValidity", Rfc2511.OptionalValidity, "rfc4211.OptionalValidity", Rfc4211.OptionalValidity⟩,
   ⟨"rfc2511.CertTemplate", Rfc2511.CertTemplate, "rfc4211.CertTemplate", Rfc4211.CertTemplate⟩,
   ⟨"rfc2511.CertRequest", Rfc2511.CertRequest, "rfc4211.CertRequest", Rfc4211.CertRequest⟩,
   ⟨"rfc2511.CertReq", Rfc2511.CertReq, "rfc4211.CertReq", Rfc4211.CertReq⟩,
   ⟨"rfc5208.Version", Rfc5208.Version, "rfc5958.Version", Rfc5958.Version⟩,
   ⟨"rfc5208.EncryptedData", Rfc5208.EncryptedData, "rfc5958.EncryptedData", Rfc5958.EncryptedData⟩,
   ⟨"rfc5208.EncryptedPrivateKeyInfo", Rfc5208.EncryptedPrivateKeyInfo, "rfc5958.EncryptedPrivateKeyInfo", Rfc5958.EncryptedPrivateKeyInfo⟩,
   ⟨"rfc5208.PrivateKey", Rfc5208.PrivateKey, "rfc5958.PrivateKey", Rfc5958.PrivateKey⟩,
   ⟨"rfc2314.Attributes", Rfc2314.Attributes, "rfc2986.Attributes", Rfc2986.Attributes⟩,
   ⟨"rfc2314.CertificationRequestInfo", Rfc2314.CertificationRequestInfo, "rfc2986.CertificationRequestInfo", Rfc2986.CertificationRequestInfo⟩,
   ⟨"rfc2314.CertificationRequest", Rfc2314.CertificationRequest, "rfc2986.CertificationRequest", Rfc2986.CertificationRequest⟩,
   ⟨"rfc2437.RSAPrivateKey", Rfc2437.RSAPrivateKey, "rfc3447.RSAPrivateKey", Rfc3447.RSAPrivateKey⟩,
   ⟨"rfc3447.RSAPrivateKey", Rfc3447.RSAPrivateKey, "rfc8017.RSAPrivateKey", Rfc8017.RSAPrivateKey⟩,
   ⟨"rfc3447.OtherPrimeInfo", Rfc3447.OtherPrimeInfo, "rfc8017.OtherPrimeInfo", Rfc8017.OtherPrimeInfo⟩,
   ⟨"rfc3447.OtherPrimeInfos", Rfc3447.OtherPrimeInfos, "rfc8017.OtherPrimeInfos", Rfc8017.OtherPrimeInfos⟩,
   ⟨"rfc2437.Version", Rfc2437.Version, "rfc8017.Version", Rfc8017.Version⟩,
   ⟨"rfc2437.RSAPrivateKey", Rfc2437.RSAPrivateKey, "rfc8017.RSAPrivateKey", Rfc8017.RSAPrivateKey⟩,
   ⟨"rfc2437.RSAPublicKey", Rfc2437.RSAPublicKey, "rfc8017.RSAPublicKey", Rfc8017.RSAPublicKey⟩,
   ⟨"rfc3281.ObjectDigestInfo", Rfc3281.ObjectDigestInfo, "rfc5755.ObjectDigestInfo", Rfc5755.ObjectDigestInfo⟩,
   ⟨"rfc3281.IssuerSerial", Rfc3281.IssuerSerial, "rfc5755.IssuerSerial", Rfc5755.IssuerSerial⟩,
   ⟨"rfc3281.TargetCert", Rfc3281.TargetCert, "rfc5755.TargetCert", Rfc5755.TargetCert⟩,
   ⟨"rfc3281.Target", Rfc3281.Target, "rfc5755.Target", Rfc5755.Target⟩,
   ⟨"rfc3281.Targets", Rfc3281.Targets, "rfc5755.Targets", Rfc5755.Targets⟩,
   ⟨"rfc3281.ProxyInfo", Rfc3281.ProxyInfo, "rfc5755.ProxyInfo", Rfc5755.ProxyInfo⟩,
   ⟨"rfc3281.ClassList", Rfc3281.ClassList, "rfc5755.ClassList", Rfc5755.ClassList⟩,
   ⟨"rfc3281.SecurityCategory", Rfc3281.SecurityCategory, "rfc5755.SecurityCategory", Rfc5755.SecurityCategory⟩,
   ⟨"rfc3281.AttCertVersion", Rfc3281.AttCertVersion, "rfc5755.AttCertVersion", Rfc5755.AttCertVersion⟩,
   ⟨"rfc3281.AttrSpec", Rfc3281.AttrSpec, "rfc5755.AttrSpec", Rfc5755.AttrSpec⟩,
   ⟨"rfc3281.AAControls", Rfc3281.AAControls, "rfc5755.AAControls", Rfc5755.AAControls⟩,
   ⟨"rfc3281.AttCertValidityPeriod", Rfc3281.AttCertValidityPeriod, "rfc5755.AttCertValidityPeriod", Rfc5755.AttCertValidityPeriod⟩,
   ⟨"rfc3281.V2Form", Rfc3281.V2Form, "rfc5755.V2Form", Rfc5755.V2Form⟩,
   ⟨"rfc3281.AttCertIssuer", Rfc3281.AttCertIssuer, "rfc5755.AttCertIssuer", Rfc5755.AttCertIssuer⟩,
   ⟨"rfc3281.Holder", Rfc3281.Holder, "rfc5755.Holder", Rfc5755.Holder⟩,
   ⟨"rfc3281.AttributeCertificateInfo", Rfc3281.AttributeCertificateInfo, "rfc5755.AttributeCertificateInfo", Rfc5755.AttributeCertificateInfo⟩,
   ⟨"rfc3281.AttributeCertificate", Rfc3281.AttributeCertificate, "rfc5755.AttributeCertificate", Rfc5755.AttributeCertificate⟩,
   ⟨"rfc3281.RoleSyntax", Rfc3281.RoleSyntax, "rfc5755.RoleSyntax", Rfc5755.RoleSyntax⟩,
   ⟨"rfc3281.ACClearAttrs", Rfc3281.ACClearAttrs, "rfc5755.ACClearAttrs", Rfc5755.ACClearAttrs⟩,
   ⟨"rfc3281.SvceAuthInfo", Rfc3281.SvceAuthInfo, "rfc5755.SvceAuthInfo", Rfc5755.SvceAuthInfo⟩,
   ⟨"rfc3281.IetfAttrSyntax", Rfc3281.IetfAttrSyntax, "rfc5755.IetfAttrSyntax", Rfc5755.IetfAttrSyntax⟩,
   ⟨"rfc2634.ContentType", Rfc2634.ContentType, "rfc5035.ContentType", Rfc5035.ContentType⟩,
   ⟨"rfc2634.IssuerAndSerialNumber", Rfc2634.IssuerAndSerialNumber, "rfc5035.IssuerAndSerialNumber", Rfc5035.IssuerAndSerialNumber⟩,
   ⟨"rfc2634.SubjectKeyIdentifier", Rfc2634.SubjectKeyIdentifier, "rfc5035.SubjectKeyIdentifier", Rfc5035.SubjectKeyIdentifier⟩,
   ⟨"rfc2634.PolicyInformation", Rfc2634.PolicyInformation, "rfc5035.PolicyInformation", Rfc5035.PolicyInformation⟩,
   ⟨"rfc2634.GeneralNames", Rfc2634.GeneralNames, "rfc5035.GeneralNames", Rfc5035.GeneralNames⟩,
   ⟨"rfc2634.CertificateSerialNumber", Rfc2634.CertificateSerialNumber, "rfc5035.CertificateSerialNumber", Rfc5035.CertificateSerialNumber⟩,
   ⟨"rfc2634.Hash", Rfc2634.Hash, "rfc5035.Hash", Rfc5035.Hash⟩,
   ⟨"rfc2634.IssuerSerial", Rfc2634.IssuerSerial, "rfc5035.IssuerSerial", Rfc5035.IssuerSerial⟩,
   ⟨"rfc2634.ESSCertID", Rfc2634.ESSCertID, "rfc5035.ESSCertID", Rfc5035.ESSCertID⟩,
   ⟨"rfc2634.SigningCertificate", Rfc2634.SigningCertificate, "rfc5035.SigningCertificate", Rfc5035.SigningCertificate⟩,
   ⟨"rfc2634.EntityIdentifier", Rfc2634.EntityIdentifier, "rfc5035.EntityIdentifier", Rfc5035.EntityIdentifier⟩,
   ⟨"rfc2634.MLReceiptPolicy", Rfc2634.MLReceiptPolicy, "rfc5035.MLReceiptPolicy", Rfc5035.MLReceiptPolicy⟩,
   ⟨"rfc2634.MLData", Rfc2634.MLData, "rfc5035.MLData", Rfc5035.MLData⟩,
   ⟨"rfc2634.MLExpansionHistory", Rfc2634.MLExpansionHistory, "rfc5035.MLExpansionHistory", Rfc5035.MLExpansionHistory⟩,
   ⟨"rfc2634.ESSPrivacyMark", Rfc2634.ESSPrivacyMark, "rfc5035.ESSPrivacyMark", Rfc5035.ESSPrivacyMark⟩,
   ⟨"rfc2634.SecurityClassification", Rfc2634.SecurityClassification, "rfc5035.SecurityClassification", Rfc5035.SecurityClassification⟩,
   ⟨"rfc2634.SecurityPolicyIdentifier", Rfc2634.SecurityPolicyIdentifier, "rfc5035.SecurityPolicyIdentifier", Rfc5035.SecurityPolicyIdentifier⟩,
   ⟨"rfc2634.SecurityCategory", Rfc2634.SecurityCategory, "rfc5035.SecurityCategory", Rfc5035.SecurityCategory⟩,
   ⟨"rfc2634.SecurityCategories", Rfc2634.SecurityCategories, "rfc5035.SecurityCategories", Rfc5035.SecurityCategories⟩,
   ⟨"rfc2634.ESSSecurityLabel", Rfc2634.ESSSecurityLabel, "rfc5035.ESSSecurityLabel", Rfc5035.ESSSecurityLabel⟩,
   ⟨"rfc2634.EquivalentLabels", Rfc2634.EquivalentLabels, "rfc5035.EquivalentLabels", Rfc5035.EquivalentLabels⟩,
   ⟨"rfc2634.ContentIdentifier", Rfc2634.ContentIdentifier, "rfc5035.ContentIdentifier", Rfc5035.ContentIdentifier⟩,
   ⟨"rfc2634.ContentReference", Rfc2634.ContentReference, "rfc5035.ContentReference", Rfc5035.ContentReference⟩,
   ⟨"rfc2634.MsgSigDigest", Rfc2634.MsgSigDigest, "rfc5035.MsgSigDigest", Rfc5035.MsgSigDigest⟩,
   ⟨"rfc2634.ContentHints", Rfc2634.ContentHints, "rfc5035.ContentHints", Rfc5035.ContentHints⟩,
   ⟨"rfc2634.AllOrFirstTier", Rfc2634.AllOrFirstTier, "rfc5035.AllOrFirstTier", Rfc5035.AllOrFirstTier⟩,
   ⟨"rfc2634.ReceiptsFrom", Rfc2634.ReceiptsFrom, "rfc5035.ReceiptsFrom", Rfc5035.ReceiptsFrom⟩,
   ⟨"rfc2634.ReceiptRequest", Rfc2634.ReceiptRequest, "rfc5035.ReceiptRequest", Rfc5035.ReceiptRequest⟩,
   ⟨"rfc2634.ESSVersion", Rfc2634.ESSVersion, "rfc5035.ESSVersion", Rfc5035.ESSVersion⟩,
   ⟨"rfc2634.Receipt", Rfc2634.Receipt, "rfc5035.Receipt", Rfc5035.Receipt⟩,
   ⟨"rfc1155.ObjectName", Rfc1155.ObjectName, "rfc1902.ObjectName", Rfc1902.ObjectName⟩,
   ⟨"rfc1155.IpAddress", Rfc1155.IpAddress, "rfc1902.IpAddress", Rfc1902.IpAddress⟩,
   ⟨"rfc1155.TimeTicks", Rfc1155.TimeTicks, "rfc1902.TimeTicks", Rfc1902.TimeTicks⟩,
   ⟨"rfc1155.Opaque", Rfc1155.Opaque, "rfc1902.Opaque", Rfc1902.Opaque⟩,
   ⟨"rfc3279.DSAPublicKey", Rfc3279.DSAPublicKey, "rfc5480.DSAPublicKey", Rfc5480.DSAPublicKey⟩,
   ⟨"rfc3279.RSAPublicKey", Rfc3279.RSAPublicKey, "rfc5480.RSAPublicKey", Rfc5480.RSAPublicKey⟩,
   ⟨"rfc3279.DHPublicKey", Rfc3279.DHPublicKey, "rfc5480.DHPublicKey", Rfc5480.DHPublicKey⟩,
   ⟨"rfc3279.ValidationParms", Rfc3279.ValidationParms, "rfc5480.ValidationParms", Rfc5480.ValidationParms⟩,
   ⟨"rfc3279.DomainParameters", Rfc3279.DomainParameters, "rfc5480.DomainParameters", Rfc5480.DomainParameters⟩,
   ⟨"rfc3279.KEA_Parms_Id", Rfc3279.KEA_Parms_Id, "rfc5480.KEA_Parms_Id", Rfc5480.KEA_Parms_Id⟩,
   ⟨"rfc3279.ECDSA_Sig_Value", Rfc3279.ECDSA_Sig_Value, "rfc5480.ECDSA_Sig_Value", Rfc5480.ECDSA_Sig_Value⟩,
   ⟨"rfc3279.ECPoint", Rfc3279.ECPoint, "rfc5480.ECPoint", Rfc5480.ECPoint⟩,
   ⟨"rfc3770.SSID", Rfc3770.SSID, "rfc4334.SSID", Rfc4334.SSID⟩,
   ⟨"rfc3770.SSIDList", Rfc3770.SSIDList, "rfc4334.SSIDList", Rfc4334.SSIDList⟩]

/-- The newer class does not read all that the older one reads; octets only the older one reads. -/
def broken : List (Row × List UInt8) :=
  [(⟨"rfc2459.TeletexDomainDefinedAttribute", Rfc2459.TeletexDomainDefinedAttribute, "rfc3280.TeletexDomainDefinedAttribute", Rfc3280.TeletexDomainDefinedAttribute⟩, [48, 5, 20, 1, 65, 20, 0]),
   (⟨"rfc2459.TeletexDomainDefinedAttributes", Rfc2459.TeletexDomainDefinedAttributes, "rfc3280.TeletexDomainDefinedAttributes", Rfc3280.TeletexDomainDefinedAttributes⟩, [48, 7, 48, 5, 20, 1, 65, 20, 0]),
   (⟨"rfc2459.PresentationAddress", Rfc2459.PresentationAddress, "rfc3280.PresentationAddress", Rfc3280.PresentationAddress⟩, [48, 0]),
   (⟨"rfc2459.ExtendedNetworkAddress", Rfc2459.ExtendedNetworkAddress, "rfc3280.ExtendedNetworkAddress", Rfc3280.ExtendedNetworkAddress⟩, [48, 5, 160, 3, 18, 1, 65]),
   (⟨"rfc2459.TeletexPersonalName", Rfc2459.TeletexPersonalName, "rfc3280.TeletexPersonalName", Rfc3280.TeletexPersonalName⟩, [49, 5, 160, 3, 20, 1, 65]),
   (⟨"rfc2459.PersonalName", Rfc2459.PersonalName, "rfc3280.PersonalName", Rfc3280.PersonalName⟩, [49, 5, 160, 3, 19, 1, 65]),
   (⟨"rfc2459.BuiltInStandardAttributes", Rfc2459.BuiltInStandardAttributes, "rfc3280.BuiltInStandardAttributes", Rfc3280.BuiltInStandardAttributes⟩, [48, 5, 160, 3, 18, 1, 65]),
   (⟨"rfc2459.ORAddress", Rfc2459.ORAddress, "rfc3280.ORAddress", Rfc3280.ORAddress⟩, [48, 7, 48, 5, 160, 3, 18, 1, 65]),
   (⟨"rfc2459.EDIPartyName", Rfc2459.EDIPartyName, "rfc3280.EDIPartyName", Rfc3280.EDIPartyName⟩, [48, 10, 160, 3, 22, 1, 65, 161, 3, 20, 1, 65]),
   (⟨"rfc2459.GeneralName", Rfc2459.GeneralName, "rfc3280.GeneralName", Rfc3280.GeneralName⟩, [163, 7, 48, 5, 160, 3, 18, 1, 65]),
   (⟨"rfc2459.GeneralNames", Rfc2459.GeneralNames, "rfc3280.GeneralNames", Rfc3280.GeneralNames⟩, [48, 9, 163, 7, 48, 5, 160, 3, 18, 1, 65]),
   (⟨"rfc2459.AccessDescription", Rfc2459.AccessDescription, "rfc3280.AccessDescription", Rfc3280.AccessDescription⟩, [48, 13, 6, 2, 42, 3, 163, 7, 48, 5, 160, 3, 18, 1, 65]),
   (⟨"rfc2459.AuthorityInfoAccessSyntax", Rfc2459.AuthorityInfoAccessSyntax, "rfc3280.AuthorityInfoAccessSyntax", Rfc3280.AuthorityInfoAccessSyntax⟩, [48, 15, 48, 13, 6, 2, 42, 3, 163, 7, 48, 5, 160, 3, 18, 1, 65]),
   (⟨"rfc2459.AuthorityKeyIdentifier", Rfc2459.AuthorityKeyIdentifier, "rfc3280.AuthorityKeyIdentifier", Rfc3280.AuthorityKeyIdentifier⟩, [48, 11, 161, 9, 163, 7, 48, 5, 160, 3, 18, 1, 65]),
   (⟨"rfc2459.DistributionPointName", Rfc2459.DistributionPointName, "rfc3280.DistributionPointName", Rfc3280.DistributionPointName⟩, [160, 9, 163, 7, 48, 5, 160, 3, 18, 1, 65]),
   (⟨"rfc2459.DistributionPoint", Rfc2459.DistributionPoint, "rfc3280.DistributionPoint", Rfc3280.DistributionPoint⟩, [48, 13, 160, 11, 160, 9, 163, 7, 48, 5, 160, 3, 18, 1, 65]),
   (⟨"rfc2459.IssuingDistributionPoint", Rfc2459.IssuingDistributionPoint, "rfc3280.IssuingDistributionPoint", Rfc3280.IssuingDistributionPoint⟩, [48, 22, 160, 11, 160, 9, 163, 7, 48, 5, 160, 3, 18, 1, 65, 129, 1, 255, 130, 1, 255, 132, 1, 255]),
   (⟨"rfc2459.GeneralSubtree", Rfc2459.GeneralSubtree, "rfc3280.GeneralSubtree", Rfc3280.GeneralSubtree⟩, [48, 9, 163, 7, 48, 5, 160, 3, 18, 1, 65]),
   (⟨"rfc2459.GeneralSubtrees", Rfc2459.GeneralSubtrees, "rfc3280.GeneralSubtrees", Rfc3280.GeneralSubtrees⟩, [48, 11, 48, 9, 163, 7, 48, 5, 160, 3, 18, 1, 65]),
   (⟨"rfc2459.NameConstraints", Rfc2459.NameConstraints, "rfc3280.NameConstraints", Rfc3280.NameConstraints⟩, [48, 13, 160, 11, 48, 9, 163, 7, 48, 5, 160, 3, 18, 1, 65]),
   (⟨"rfc2459.CertificateIssuer", Rfc2459.CertificateIssuer, "rfc3280.CertificateIssuer", Rfc3280.CertificateIssuer⟩, [48, 9, 163, 7, 48, 5, 160, 3, 18, 1, 65]),
   (⟨"rfc2459.SubjectAltName", Rfc2459.SubjectAltName, "rfc3280.SubjectAltName", Rfc3280.SubjectAltName⟩, [48, 9, 163, 7, 48, 5, 160, 3, 18, 1, 65]),
   (⟨"rfc2459.IssuerAltName", Rfc2459.IssuerAltName, "rfc3280.IssuerAltName", Rfc3280.IssuerAltName⟩, [48, 9, 163, 7, 48, 5, 160, 3, 18, 1, 65]),
   (⟨"rfc3280.DirectoryString", Rfc3280.DirectoryString, "rfc5280.DirectoryString", Rfc5280.DirectoryString⟩, [5, 0]),
   (⟨"rfc2459.DirectoryString", Rfc2459.DirectoryString, "rfc5280.DirectoryString", Rfc5280.DirectoryString⟩, [22, 1, 65]),
   (⟨"rfc2459.TeletexDomainDefinedAttribute", Rfc2459.TeletexDomainDefinedAttribute, "rfc5280.TeletexDomainDefinedAttribute", Rfc5280.TeletexDomainDefinedAttribute⟩, [48, 5, 20, 1, 65, 20, 0]),
   (⟨"rfc2459.TeletexDomainDefinedAttributes", Rfc2459.TeletexDomainDefinedAttributes, "rfc5280.TeletexDomainDefinedAttributes", Rfc5280.TeletexDomainDefinedAttributes⟩, [48, 7, 48, 5, 20, 1, 65, 20, 0]),
   (⟨"rfc2459.PresentationAddress", Rfc2459.PresentationAddress, "rfc5280.PresentationAddress", Rfc5280.PresentationAddress⟩, [48, 0]),
   (⟨"rfc2459.ExtendedNetworkAddress", Rfc2459.ExtendedNetworkAddress, "rfc5280.ExtendedNetworkAddress", Rfc5280.ExtendedNetworkAddress⟩, [48, 5, 160, 3, 18, 1, 65]),
   (⟨"rfc2459.TeletexPersonalName", Rfc2459.TeletexPersonalName, "rfc5280.TeletexPersonalName", Rfc5280.TeletexPersonalName⟩, [49, 5, 160, 3, 20, 1, 65]),
   (⟨"rfc2459.PersonalName", Rfc2459.PersonalName, "rfc5280.PersonalName", Rfc5280.PersonalName⟩, [49, 5, 160, 3, 19, 1, 65]),
   (⟨"rfc2459.BuiltInStandardAttributes", Rfc2459.BuiltInStandardAttributes, "rfc5280.BuiltInStandardAttributes", Rfc5280.BuiltInStandardAttributes⟩, [48, 5, 160, 3, 18, 1, 65]),
   (⟨"rfc2459.ORAddress", Rfc2459.ORAddress, "rfc5280.ORAddress", Rfc5280.ORAddress⟩, [48, 7, 48, 5, 160, 3, 18, 1, 65]),
   (⟨"rfc2459.EDIPartyName", Rfc2459.EDIPartyName, "rfc5280.EDIPartyName", Rfc5280.EDIPartyName⟩, [48, 10, 160, 3, 22, 1, 65, 161, 3, 20, 1, 65]),
   (⟨"rfc2459.GeneralName", Rfc2459.GeneralName, "rfc5280.GeneralName", Rfc5280.GeneralName⟩, [163, 7, 48, 5, 160, 3, 18, 1, 65]),
   (⟨"rfc2459.GeneralNames", Rfc2459.GeneralNames, "rfc5280.GeneralNames", Rfc5280.GeneralNames⟩, [48, 9, 163, 7, 48, 5, 160, 3, 18, 1, 65]),
   (⟨"rfc2459.AccessDescription", Rfc2459.AccessDescription, "rfc5280.AccessDescription", Rfc5280.AccessDescription⟩, [48, 13, 6, 2, 42, 3, 163, 7, 48, 5, 160, 3, 18, 1, 65]),
   (⟨"rfc2459.AuthorityInfoAccessSyntax", Rfc2459.AuthorityInfoAccessSyntax, "rfc5280.AuthorityInfoAccessSyntax", Rfc5280.AuthorityInfoAccessSyntax⟩, [48, 15, 48, 13, 6, 2, 42, 3, 163, 7, 48, 5, 160, 3, 18, 1, 65]),
   (⟨"rfc2459.AuthorityKeyIdentifier", Rfc2459.AuthorityKeyIdentifier, "rfc5280.AuthorityKeyIdentifier", Rfc5280.AuthorityKeyIdentifier⟩, [48, 11, 161, 9, 163, 7, 48, 5, 160, 3, 18, 1, 65]),
   (⟨"rfc2459.DistributionPointName", Rfc2459.DistributionPointName, "rfc5280.DistributionPointName", Rfc5280.DistributionPointName⟩, [160, 9, 163, 7, 48, 5, 160, 3, 18, 1, 65]),
   (⟨"rfc2459.DistributionPoint", Rfc2459.DistributionPoint, "rfc5280.DistributionPoint", Rfc5280.DistributionPoint⟩, [48, 13, 160, 11, 160, 9, 163, 7, 48, 5, 160, 3, 18, 1, 65]),
   (⟨"rfc2459.IssuingDistributionPoint", Rfc2459.IssuingDistributionPoint, "rfc5280.IssuingDistributionPoint", Rfc5280.IssuingDistributionPoint⟩, [48, 22, 160, 11, 160, 9, 163, 7, 48, 5, 160, 3, 18, 1, 65, 129, 1, 255, 130, 1, 255, 132, 1, 255]),
   (⟨"rfc2459.GeneralSubtree", Rfc2459.GeneralSubtree, "rfc5280.GeneralSubtree", Rfc5280.GeneralSubtree⟩, [48, 9, 163, 7, 48, 5, 160, 3, 18, 1, 65]),
   (⟨"rfc2459.GeneralSubtrees", Rfc2459.GeneralSubtrees, "rfc5280.GeneralSubtrees", Rfc5280.GeneralSubtrees⟩, [48, 11, 48, 9, 163, 7, 48, 5, 160, 3, 18, 1, 65]),
   (⟨"rfc2459.NameConstraints", Rfc2459.NameConstraints, "rfc5280.NameConstraints", Rfc5280.NameConstraints⟩, [48, 13, 160, 11, 48, 9, 163, 7, 48, 5, 160, 3, 18, 1, 65]),
   (⟨"rfc2459.CertificateIssuer", Rfc2459.CertificateIssuer, "rfc5280.CertificateIssuer", Rfc5280.CertificateIssuer⟩, [48, 9, 163, 7, 48, 5, 160, 3, 18, 1, 65]),
   (⟨"rfc2459.SubjectAltName", Rfc2459.SubjectAltName, "rfc5280.SubjectAltName", Rfc5280.SubjectAltName⟩, [48, 9, 163, 7, 48, 5, 160, 3, 18, 1, 65]),
   (⟨"rfc2459.IssuerAltName", Rfc2459.IssuerAltName, "rfc5280.IssuerAltName", Rfc5280.IssuerAltName⟩, [48, 9, 163, 7, 48, 5, 160, 3, 18, 1, 65]),
   (⟨"rfc2315.ContentInfo", Rfc2315.ContentInfo, "rfc3852.ContentInfo", Rfc3852.ContentInfo⟩, [48, 4, 6, 2, 42, 3]),
   (⟨"rfc2315.DigestedData", Rfc2315.DigestedData, "rfc3852.DigestedData", Rfc3852.DigestedData⟩, [48, 21, 2, 1, 0, 48, 4, 6, 2, 42, 3, 48, 8, 6, 2, 42, 3, 160, 2, 5, 0, 4, 0]),
   (⟨"rfc2315.SignedData", Rfc2315.SignedData, "rfc3852.SignedData", Rfc3852.SignedData⟩, [48, 9, 2, 1, 0, 48, 4, 6, 2, 42, 3]),
   (⟨"rfc2315.ContentInfo", Rfc2315.ContentInfo, "rfc5652.ContentInfo", Rfc5652.ContentInfo⟩, [48, 4, 6, 2, 42, 3]),
   (⟨"rfc2315.DigestedData", Rfc2315.DigestedData, "rfc5652.DigestedData", Rfc5652.DigestedData⟩, [48, 21, 2, 1, 0, 48, 4, 6, 2, 42, 3, 48, 8, 6, 2, 42, 3, 160, 2, 5, 0, 4, 0]),
   (⟨"rfc2315.SignedData", Rfc2315.SignedData, "rfc5652.SignedData", Rfc5652.SignedData⟩, [48, 9, 2, 1, 0, 48, 4, 6, 2, 42, 3]),
   (⟨"rfc2560.GeneralName", Rfc2560.GeneralName, "rfc6960.GeneralName", Rfc6960.GeneralName⟩, [4, 0]),
   (⟨"rfc2560.TBSRequest", Rfc2560.TBSRequest, "rfc6960.TBSRequest", Rfc6960.TBSRequest⟩, [48, 6, 161, 2, 4, 0, 48, 0]),
   (⟨"rfc2560.OCSPRequest", Rfc2560.OCSPRequest, "rfc6960.OCSPRequest", Rfc6960.OCSPRequest⟩, [48, 8, 48, 6, 161, 2, 4, 0, 48, 0]),
   (⟨"rfc2511.CertId", Rfc2511.CertId, "rfc4211.CertId", Rfc4211.CertId⟩, [48, 5, 4, 0, 2, 1, 0]),
   (⟨"rfc2511.OldCertId", Rfc2511.OldCertId, "rfc4211.OldCertId", Rfc4211.OldCertId⟩, [48, 5, 4, 0, 2, 1, 0]),
   (⟨"rfc2511.SinglePubInfo", Rfc2511.SinglePubInfo, "rfc4211.SinglePubInfo", Rfc4211.SinglePubInfo⟩, [48, 5, 2, 1, 0, 4, 0]),
   (⟨"rfc2511.PKIPublicationInfo", Rfc2511.PKIPublicationInfo, "rfc4211.PKIPublicationInfo", Rfc4211.PKIPublicationInfo⟩, [48, 12, 2, 1, 0, 48, 7, 48, 5, 2, 1, 0, 4, 0]),
   (⟨"rfc2511.POPOSigningKeyInput", Rfc2511.POPOSigningKeyInput, "rfc4211.POPOSigningKeyInput", Rfc4211.POPOSigningKeyInput⟩, [48, 13, 128, 0, 48, 9, 48, 4, 6, 2, 42, 3, 3, 1, 0]),
   (⟨"rfc2511.POPOSigningKey", Rfc2511.POPOSigningKey, "rfc4211.POPOSigningKey", Rfc4211.POPOSigningKey⟩, [48, 24, 160, 13, 128, 0, 48, 9, 48, 4, 6, 2, 42, 3, 3, 1, 0, 48, 4, 6, 2, 42, 3, 3, 1, 0]),
   (⟨"rfc2511.ProofOfPossession", Rfc2511.ProofOfPossession, "rfc4211.ProofOfPossession", Rfc4211.ProofOfPossession⟩, [161, 24, 160, 13, 128, 0, 48, 9, 48, 4, 6, 2, 42, 3, 3, 1, 0, 48, 4, 6, 2, 42, 3, 3, 1, 0]),
   (⟨"rfc2511.CertReqMsg", Rfc2511.CertReqMsg, "rfc4211.CertReqMsg", Rfc4211.CertReqMsg⟩, [48, 33, 48, 5, 2, 1, 0, 48, 0, 161, 24, 160, 13, 128, 0, 48, 9, 48, 4, 6, 2, 42, 3, 3, 1, 0, 48, 4, 6, 2, 42, 3, 3, 1, 0]),
   (⟨"rfc2511.CertReqMessages", Rfc2511.CertReqMessages, "rfc4211.CertReqMessages", Rfc4211.CertReqMessages⟩, [48, 35, 48, 33, 48, 5, 2, 1, 0, 48, 0, 161, 24, 160, 13, 128, 0, 48, 9, 48, 4, 6, 2, 42, 3, 3, 1, 0, 48, 4, 6, 2, 42, 3, 3, 1, 0]),
   (⟨"rfc5208.Attributes", Rfc5208.Attributes, "rfc5958.Attributes", Rfc5958.Attributes⟩, [49, 6, 48, 4, 4, 0, 49, 0]),
   (⟨"rfc5208.PrivateKeyInfo", Rfc5208.PrivateKeyInfo, "rfc5958.PrivateKeyInfo", Rfc5958.PrivateKeyInfo⟩, [48, 19, 2, 1, 0, 48, 4, 6, 2, 42, 3, 4, 0, 160, 6, 48, 4, 4, 0, 49, 0]),
   (⟨"rfc2437.RSAES_OAEP_params", Rfc2437.RSAES_OAEP_params, "rfc8017.RSAES_OAEP_params", Rfc8017.RSAES_OAEP_params⟩, [48, 18, 160, 4, 6, 2, 42, 3, 161, 4, 6, 2, 42, 3, 162, 4, 6, 2, 42, 3]),
   (⟨"rfc3281.Clearance", Rfc3281.Clearance, "rfc5755.Clearance", Rfc5755.Clearance⟩, [48, 4, 128, 2, 42, 3]),
   (⟨"rfc1155.SimpleSyntax", Rfc1155.SimpleSyntax, "rfc1902.SimpleSyntax", Rfc1902.SimpleSyntax⟩, [2, 5, 0, 128, 0, 0, 0]),
   (⟨"rfc1155.ObjectSyntax", Rfc1155.ObjectSyntax, "rfc1902.ObjectSyntax", Rfc1902.ObjectSyntax⟩, [2, 5, 0, 128, 0, 0, 0]),
   (⟨"rfc1157.VarBind", Rfc1157.VarBind, "rfc1905.VarBind", Rfc1905.VarBind⟩, [48, 11, 6, 2, 42, 3, 2, 5, 0, 128, 0, 0, 0]),
   (⟨"rfc1157.VarBindList", Rfc1157.VarBindList, "rfc1905.VarBindList", Rfc1905.VarBindList⟩, [48, 13, 48, 11, 6, 2, 42, 3, 2, 5, 0, 128, 0, 0, 0]),
   (⟨"rfc1157.GetRequestPDU", Rfc1157.GetRequestPDU, "rfc1905.GetRequestPDU", Rfc1905.GetRequestPDU⟩, [160, 15, 2, 5, 0, 128, 0, 0, 0, 2, 1, 0, 2, 1, 0, 48, 0]),
   (⟨"rfc1157.GetNextRequestPDU", Rfc1157.GetNextRequestPDU, "rfc1905.GetNextRequestPDU", Rfc1905.GetNextRequestPDU⟩, [161, 15, 2, 5, 0, 128, 0, 0, 0, 2, 1, 0, 2, 1, 0, 48, 0]),
   (⟨"rfc1157.SetRequestPDU", Rfc1157.SetRequestPDU, "rfc1905.SetRequestPDU", Rfc1905.SetRequestPDU⟩, [163, 15, 2, 5, 0, 128, 0, 0, 0, 2, 1, 0, 2, 1, 0, 48, 0]),
   (⟨"rfc3279.ECParameters", Rfc3279.ECParameters, "rfc5480.ECParameters", Rfc5480.ECParameters⟩, [48, 22, 2, 1, 0, 48, 6, 6, 2, 42, 3, 5, 0, 48, 4, 4, 0, 4, 0, 4, 0, 2, 1, 0])]

/-- Compatible, but not component by component. -/
def nested : List Row :=
  [⟨"rfc1155.ApplicationSyntax", Rfc1155.ApplicationSyntax, "rfc1902.ApplicationSyntax", Rfc1902.ApplicationSyntax⟩]

end Successors
end Verif
