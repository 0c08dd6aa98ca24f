import Verif.Asn1.Objects
import Verif.Std.Rfc2459

/-! The objects of rfc2459 (generated by tools/objgen.py from tools/std/objects.txt). -/

set_option maxRecDepth 100000

namespace Verif
namespace Std
namespace Rfc2459

open Asn1 Spec.X680

def objects : List Object :=
  [⟨.ATTRIBUTE_2459, .oid [2, 5, 4, 41], X520name, (some .same)⟩,
   ⟨.ATTRIBUTE_2459, .oid [2, 5, 4, 4], X520name, (some .same)⟩,
   ⟨.ATTRIBUTE_2459, .oid [2, 5, 4, 42], X520name, (some .same)⟩,
   ⟨.ATTRIBUTE_2459, .oid [2, 5, 4, 43], X520name, (some .same)⟩,
   ⟨.ATTRIBUTE_2459, .oid [2, 5, 4, 44], X520name, (some .same)⟩,
   ⟨.ATTRIBUTE_2459, .oid [2, 5, 4, 3], X520CommonName, (some .same)⟩,
   ⟨.ATTRIBUTE_2459, .oid [2, 5, 4, 7], X520LocalityName, (some .same)⟩,
   ⟨.ATTRIBUTE_2459, .oid [2, 5, 4, 8], X520StateOrProvinceName, (some .same)⟩,
   ⟨.ATTRIBUTE_2459, .oid [2, 5, 4, 10], X520OrganizationName, (some .same)⟩,
   ⟨.ATTRIBUTE_2459, .oid [2, 5, 4, 11], X520OrganizationalUnitName, (some .same)⟩,
   ⟨.ATTRIBUTE_2459, .oid [2, 5, 4, 12], X520Title, (some .same)⟩,
   ⟨.ATTRIBUTE_2459, .oid [2, 5, 4, 46], X520dnQualifier, (some .same)⟩,
   ⟨.ATTRIBUTE_2459, .oid [2, 5, 4, 6], X520countryName, (some .same)⟩,
   ⟨.ATTRIBUTE_2459, .oid [1, 2, 840, 113549, 1, 9, 1], Pkcs9email, (some .same)⟩,
   ⟨.EXTENSION_2459, .oid [2, 5, 29, 35], AuthorityKeyIdentifier, (some (.refused [48, 19, 161, 17, 163, 15, 48, 0, 49, 11, 48, 9, 160, 3, 2, 1, 0, 161, 2, 5, 0]))⟩,
   ⟨.EXTENSION_2459, .oid [2, 5, 29, 14], SubjectKeyIdentifier, (some .same)⟩,
   ⟨.EXTENSION_2459, .oid [2, 5, 29, 15], KeyUsage, (some .same)⟩,
   ⟨.EXTENSION_2459, .oid [2, 5, 29, 16], PrivateKeyUsagePeriod, (some .same)⟩,
   ⟨.EXTENSION_2459, .oid [2, 5, 29, 32], CertificatePolicies, (some .same)⟩,
   ⟨.EXTENSION_2459, .oid [2, 5, 29, 33], PolicyMappings, (some .same)⟩,
   ⟨.EXTENSION_2459, .oid [2, 5, 29, 17], SubjectAltName, (some (.refused [48, 17, 163, 15, 48, 0, 49, 11, 48, 9, 160, 3, 2, 1, 0, 161, 2, 5, 0]))⟩,
   ⟨.EXTENSION_2459, .oid [2, 5, 29, 18], IssuerAltName, (some (.refused [48, 17, 163, 15, 48, 0, 49, 11, 48, 9, 160, 3, 2, 1, 0, 161, 2, 5, 0]))⟩,
   ⟨.EXTENSION_2459, .oid [2, 5, 29, 9], SubjectDirectoryAttributes, (some .same)⟩,
   ⟨.EXTENSION_2459, .oid [2, 5, 29, 19], BasicConstraints, (some .same)⟩,
   ⟨.EXTENSION_2459, .oid [2, 5, 29, 30], NameConstraints, (some (.refused [48, 21, 160, 19, 48, 17, 163, 15, 48, 0, 49, 11, 48, 9, 160, 3, 2, 1, 0, 161, 2, 5, 0]))⟩,
   ⟨.EXTENSION_2459, .oid [2, 5, 29, 36], PolicyConstraints, (some (.refused [48, 3, 128, 1, 0]))⟩,
   ⟨.EXTENSION_2459, .oid [2, 5, 29, 37], ExtKeyUsageSyntax, (some .same)⟩,
   ⟨.EXTENSION_2459, .oid [2, 5, 29, 31], CRLDistPointsSyntax, (some (.refused [48, 21, 48, 19, 162, 17, 163, 15, 48, 0, 49, 11, 48, 9, 160, 3, 2, 1, 0, 161, 2, 5, 0]))⟩,
   ⟨.EXTENSION_2459, .oid [1, 3, 6, 1, 5, 5, 7, 1, 1], AuthorityInfoAccessSyntax, (some (.refused [48, 22, 48, 20, 6, 1, 43, 163, 15, 48, 0, 49, 11, 48, 9, 160, 3, 2, 1, 0, 161, 2, 5, 0]))⟩,
   ⟨.EXTENSION_2459, .oid [2, 5, 29, 20], CRLNumber, (some .relaxed)⟩,
   ⟨.EXTENSION_2459, .oid [2, 5, 29, 27], BaseCRLNumber, (some (.refused [2, 1, 0]))⟩,
   ⟨.EXTENSION_2459, .oid [2, 5, 29, 28], IssuingDistributionPoint, (some (.refused [48, 0]))⟩,
   ⟨.EXTENSION_2459, .oid [2, 5, 29, 21], CRLReason, (some .same)⟩,
   ⟨.EXTENSION_2459, .oid [2, 5, 29, 23], HoldInstructionCode, (some .same)⟩,
   ⟨.EXTENSION_2459, .oid [2, 5, 29, 24], InvalidityDate, (some .same)⟩,
   ⟨.EXTENSION_2459, .oid [2, 5, 29, 29], CertificateIssuer, (some (.refused [48, 17, 163, 15, 48, 0, 49, 11, 48, 9, 160, 3, 2, 1, 0, 161, 2, 5, 0]))⟩]

def unlisted : List (ObjClass × Val) :=
  []

def registered : Objects := ⟨Verif.Rfc2459.asModule, objects, unlisted⟩

end Rfc2459
end Std
end Verif
