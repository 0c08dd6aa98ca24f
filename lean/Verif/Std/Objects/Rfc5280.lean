import Verif.Asn1.Objects
import Verif.Std.Rfc5280

/-! The objects of rfc5280 (generated by tools/objgen.py from tools/std/objects.txt). -/

set_option maxRecDepth 100000

namespace Verif
namespace Std
namespace Rfc5280

open Asn1 Spec.X680

def objects : List Object :=
  [⟨.EXTENSION_ATTRIBUTE, .int 1, CommonName, (some .same)⟩,
   ⟨.EXTENSION_ATTRIBUTE, .int 2, TeletexCommonName, (some .same)⟩,
   ⟨.EXTENSION_ATTRIBUTE, .int 3, TeletexOrganizationName, (some .same)⟩,
   ⟨.EXTENSION_ATTRIBUTE, .int 4, TeletexPersonalName, (some .same)⟩,
   ⟨.EXTENSION_ATTRIBUTE, .int 5, TeletexOrganizationalUnitNames, (some .same)⟩,
   ⟨.EXTENSION_ATTRIBUTE, .int 7, PDSName, (some .same)⟩,
   ⟨.EXTENSION_ATTRIBUTE, .int 8, PhysicalDeliveryCountryName, (some .same)⟩,
   ⟨.EXTENSION_ATTRIBUTE, .int 9, PostalCode, (some .same)⟩,
   ⟨.EXTENSION_ATTRIBUTE, .int 10, PhysicalDeliveryOfficeName, (some .same)⟩,
   ⟨.EXTENSION_ATTRIBUTE, .int 11, PhysicalDeliveryOfficeNumber, (some .same)⟩,
   ⟨.EXTENSION_ATTRIBUTE, .int 12, ExtensionORAddressComponents, (some .same)⟩,
   ⟨.EXTENSION_ATTRIBUTE, .int 13, PhysicalDeliveryPersonalName, (some .same)⟩,
   ⟨.EXTENSION_ATTRIBUTE, .int 14, PhysicalDeliveryOrganizationName, (some .same)⟩,
   ⟨.EXTENSION_ATTRIBUTE, .int 15, ExtensionPhysicalDeliveryAddressComponents, (some .same)⟩,
   ⟨.EXTENSION_ATTRIBUTE, .int 16, UnformattedPostalAddress, (some .relaxed)⟩,
   ⟨.EXTENSION_ATTRIBUTE, .int 17, StreetAddress, (some .same)⟩,
   ⟨.EXTENSION_ATTRIBUTE, .int 18, PostOfficeBoxAddress, (some .same)⟩,
   ⟨.EXTENSION_ATTRIBUTE, .int 19, PosteRestanteAddress, (some .same)⟩,
   ⟨.EXTENSION_ATTRIBUTE, .int 20, UniquePostalName, (some .same)⟩,
   ⟨.EXTENSION_ATTRIBUTE, .int 21, LocalPostalAttributes, (some .same)⟩,
   ⟨.EXTENSION_ATTRIBUTE, .int 22, ExtendedNetworkAddress, (some .relaxed)⟩,
   ⟨.EXTENSION_ATTRIBUTE, .int 23, TerminalType, (some .relaxed)⟩,
   ⟨.EXTENSION_ATTRIBUTE, .int 6, TeletexDomainDefinedAttributes, (some .same)⟩,
   ⟨.ATTRIBUTE, .oid [2, 5, 4, 41], X520name, (some .same)⟩,
   ⟨.ATTRIBUTE, .oid [2, 5, 4, 4], X520name, (some .same)⟩,
   ⟨.ATTRIBUTE, .oid [2, 5, 4, 42], X520name, (some .same)⟩,
   ⟨.ATTRIBUTE, .oid [2, 5, 4, 43], X520name, (some .same)⟩,
   ⟨.ATTRIBUTE, .oid [2, 5, 4, 44], X520name, (some .same)⟩,
   ⟨.ATTRIBUTE, .oid [2, 5, 4, 3], X520CommonName, (some .same)⟩,
   ⟨.ATTRIBUTE, .oid [2, 5, 4, 7], X520LocalityName, (some .same)⟩,
   ⟨.ATTRIBUTE, .oid [2, 5, 4, 8], X520StateOrProvinceName, (some .same)⟩,
   ⟨.ATTRIBUTE, .oid [2, 5, 4, 10], X520OrganizationName, (some .same)⟩,
   ⟨.ATTRIBUTE, .oid [2, 5, 4, 11], X520OrganizationalUnitName, (some .same)⟩,
   ⟨.ATTRIBUTE, .oid [2, 5, 4, 12], X520Title, (some .same)⟩,
   ⟨.ATTRIBUTE, .oid [2, 5, 4, 46], X520dnQualifier, (some .same)⟩,
   ⟨.ATTRIBUTE, .oid [2, 5, 4, 6], X520countryName, (some .same)⟩,
   ⟨.ATTRIBUTE, .oid [2, 5, 4, 5], X520SerialNumber, (some .same)⟩,
   ⟨.ATTRIBUTE, .oid [2, 5, 4, 65], X520Pseudonym, (some .same)⟩,
   ⟨.ATTRIBUTE, .oid [0, 9, 2342, 19200300, 100, 1, 25], DomainComponent, (some .same)⟩,
   ⟨.ATTRIBUTE, .oid [1, 2, 840, 113549, 1, 9, 1], EmailAddress, (some .same)⟩,
   ⟨.EXTENSION, .oid [2, 5, 29, 35], AuthorityKeyIdentifier, (some .same)⟩,
   ⟨.EXTENSION, .oid [2, 5, 29, 14], SubjectKeyIdentifier, (some .same)⟩,
   ⟨.EXTENSION, .oid [2, 5, 29, 15], KeyUsage, (some .same)⟩,
   ⟨.EXTENSION, .oid [2, 5, 29, 16], PrivateKeyUsagePeriod, (some .same)⟩,
   ⟨.EXTENSION, .oid [2, 5, 29, 32], CertificatePolicies, (some .relaxed)⟩,
   ⟨.EXTENSION, .oid [2, 5, 29, 33], PolicyMappings, (some .same)⟩,
   ⟨.EXTENSION, .oid [2, 5, 29, 17], SubjectAltName, (some .same)⟩,
   ⟨.EXTENSION, .oid [2, 5, 29, 18], IssuerAltName, (some .same)⟩,
   ⟨.EXTENSION, .oid [2, 5, 29, 9], SubjectDirectoryAttributes, (some .same)⟩,
   ⟨.EXTENSION, .oid [2, 5, 29, 19], BasicConstraints, (some .same)⟩,
   ⟨.EXTENSION, .oid [2, 5, 29, 30], NameConstraints, (some .same)⟩,
   ⟨.EXTENSION, .oid [2, 5, 29, 36], PolicyConstraints, (some .same)⟩,
   ⟨.EXTENSION, .oid [2, 5, 29, 37], ExtKeyUsageSyntax, (some .same)⟩,
   ⟨.EXTENSION, .oid [2, 5, 29, 31], CRLDistributionPoints, (some .same)⟩,
   ⟨.EXTENSION, .oid [1, 3, 6, 1, 5, 5, 7, 1, 1], AuthorityInfoAccessSyntax, (some .same)⟩,
   ⟨.EXTENSION, .oid [2, 5, 29, 20], CRLNumber, (some .relaxed)⟩,
   ⟨.EXTENSION, .oid [2, 5, 29, 27], BaseCRLNumber, (some .same)⟩,
   ⟨.EXTENSION, .oid [2, 5, 29, 28], IssuingDistributionPoint, (some .same)⟩,
   ⟨.EXTENSION, .oid [2, 5, 29, 21], CRLReason, (some .same)⟩,
   ⟨.EXTENSION, .oid [2, 5, 29, 23], HoldInstructionCode, (some .same)⟩,
   ⟨.EXTENSION, .oid [2, 5, 29, 24], InvalidityDate, (some .same)⟩,
   ⟨.EXTENSION, .oid [2, 5, 29, 29], CertificateIssuer, (some .same)⟩,
   ⟨.EXTENSION, .oid [2, 5, 29, 54], InhibitAnyPolicy, none⟩,
   ⟨.EXTENSION, .oid [2, 5, 29, 46], FreshestCRL, none⟩,
   ⟨.EXTENSION, .oid [1, 3, 6, 1, 5, 5, 7, 1, 11], SubjectInfoAccessSyntax, none⟩,
   ⟨.CERT_POLICY_QUALIFIER, .oid [1, 3, 6, 1, 5, 5, 7, 2, 1], CPSuri, none⟩,
   ⟨.CERT_POLICY_QUALIFIER, .oid [1, 3, 6, 1, 5, 5, 7, 2, 2], UserNotice, none⟩]

def unlisted : List (ObjClass × Val) :=
  []

def registered : Objects := ⟨Verif.Rfc5280.asModule, objects, unlisted⟩

end Rfc5280
end Std
end Verif
