import Verif.Gen.Package

/-! The names of the classes of the package (generated by tools/names.py). -/

namespace Verif
namespace Names

/-- A name, and the definitions it has in the modules. -/
structure Group where
  name : List Char
  defs : List Py.Obj
  /-- Octets that the one definition reads and the other does not. -/
  apart : List (Nat × Nat × List UInt8) := []
  /-- The other definition reads what the one reads, but not component for component. -/
  other : List (Nat × Nat) := []

def block0 : List Group :=
  [{ name := ['A', 'A', 'C', 'o', 'n', 't', 'r', 'o', 'l', 's'], defs := [Rfc3281.AAControls, Rfc5755.AAControls] },
   { name := ['A', 'C', 'C', 'l', 'e', 'a', 'r', 'A', 't', 't', 'r', 's'], defs := [Rfc3281.ACClearAttrs, Rfc5755.ACClearAttrs] },
   { name := ['A', 'C', 'P', 'S', 'u', 'r', 'i'], defs := [Rfc4476.ACPSuri] },
   { name := ['A', 'C', 'U', 's', 'e', 'r', 'N', 'o', 't', 'i', 'c', 'e'], defs := [Rfc5280.UserNotice] },
   { name := ['A', 'E', 'A', 'D', 'C', 'h', 'a', 'C', 'h', 'a', '2', '0', 'P', 'o', 'l', 'y', '1', '3', '0', '5', 'N', 'o', 'n', 'c', 'e'], defs := [Rfc8103.AEADChaCha20Poly1305Nonce] },
   { name := ['A', 'E', 'S', '_', 'C', 'C', 'M', '_', 'I', 'C', 'V', 'l', 'e', 'n'], defs := [Rfc5084.AES_CCM_ICVlen] },
   { name := ['A', 'E', 'S', '_', 'G', 'C', 'M', '_', 'I', 'C', 'V', 'l', 'e', 'n'], defs := [Rfc5084.AES_GCM_ICVlen] },
   { name := ['A', 'E', 'S', '_', 'I', 'V'], defs := [Rfc3565.AES_IV, Rfc8018.AES_IV] },
   { name := ['A', 'S', 'I', 'D'], defs := [Rfc6482.ASID] },
   { name := ['A', 'S', 'I', 'd'], defs := [Rfc3779.ASId] },
   { name := ['A', 'S', 'I', 'd', 'O', 'r', 'R', 'a', 'n', 'g', 'e'], defs := [Rfc3779.ASIdOrRange] },
   { name := ['A', 'S', 'I', 'd', 'e', 'n', 't', 'i', 'f', 'i', 'e', 'r', 'C', 'h', 'o', 'i', 'c', 'e'], defs := [Rfc3779.ASIdentifierChoice] },
   { name := ['A', 'S', 'I', 'd', 'e', 'n', 't', 'i', 'f', 'i', 'e', 'r', 's'], defs := [Rfc3779.ASIdentifiers] },
   { name := ['A', 'S', 'R', 'a', 'n', 'g', 'e'], defs := [Rfc3779.ASRange] },
   { name := ['A', 'b', 'a', 'n', 'd', 'o', 'n', 'R', 'e', 'q', 'u', 'e', 's', 't'], defs := [Rfc2251.AbandonRequest] },
   { name := ['A', 'c', 'P', 'o', 'l', 'i', 'c', 'i', 'e', 's', 'S', 'y', 'n', 't', 'a', 'x'], defs := [Rfc4476.AcPoliciesSyntax] },
   { name := ['A', 'c', 'P', 'o', 'l', 'i', 'c', 'y', 'I', 'd'], defs := [Rfc4476.AcPolicyId] },
   { name := ['A', 'c', 'c', 'e', 'p', 't', 'a', 'b', 'l', 'e', 'P', 'o', 'l', 'i', 'c', 'y', 'S', 'e', 't'], defs := [Rfc3125.AcceptablePolicySet] },
   { name := ['A', 'c', 'c', 'e', 'p', 't', 'a', 'b', 'l', 'e', 'R', 'e', 's', 'p', 'o', 'n', 's', 'e', 's'], defs := [Rfc2560.AcceptableResponses] },
   { name := ['A', 'c', 'c', 'e', 's', 's', 'D', 'e', 's', 'c', 'r', 'i', 'p', 't', 'i', 'o', 'n'], defs := [Rfc2459.AccessDescription, Rfc3280.AccessDescription, Rfc5280.AccessDescription],
     apart := [(0, 1, [48, 10, 6, 1, 42, 165, 5, 161, 3, 22, 1, 65]),
       (0, 2, [48, 10, 6, 1, 42, 165, 5, 161, 3, 22, 1, 65]),
       (1, 0, [48, 18, 6, 1, 42, 163, 13, 48, 0, 49, 9, 48, 7, 128, 1, 0, 161, 2, 5, 0]),
       (2, 0, [48, 18, 6, 1, 42, 163, 13, 48, 0, 49, 9, 48, 7, 128, 1, 0, 161, 2, 5, 0])] },
   { name := ['A', 'c', 'c', 'u', 'r', 'a', 'c', 'y'], defs := [Rfc3161.Accuracy] },
   { name := ['A', 'd', 'd', 'E', 'x', 't', 'e', 'n', 's', 'i', 'o', 'n', 's'], defs := [Rfc6402.AddExtensions] },
   { name := ['A', 'd', 'd', 'R', 'e', 'q', 'u', 'e', 's', 't'], defs := [Rfc2251.AddRequest] },
   { name := ['A', 'd', 'd', 'R', 'e', 's', 'p', 'o', 'n', 's', 'e'], defs := [Rfc2251.AddResponse] },
   { name := ['A', 'd', 'm', 'i', 'n', 'i', 's', 't', 'r', 'a', 't', 'i', 'o', 'n', 'D', 'o', 'm', 'a', 'i', 'n', 'N', 'a', 'm', 'e'], defs := [Rfc2459.AdministrationDomainName, Rfc3280.AdministrationDomainName, Rfc5280.AdministrationDomainName] },
   { name := ['A', 'l', 'g', 'A', 'n', 'd', 'L', 'e', 'n', 'g', 't', 'h'], defs := [Rfc3125.AlgAndLength] },
   { name := ['A', 'l', 'g', 'o', 'r', 'i', 't', 'h', 'm'], defs := [Rfc7508.Algorithm] },
   { name := ['A', 'l', 'g', 'o', 'r', 'i', 't', 'h', 'm', 'C', 'o', 'n', 's', 't', 'r', 'a', 'i', 'n', 't', 'S', 'e', 't'], defs := [Rfc3125.AlgorithmConstraintSet] },
   { name := ['A', 'l', 'g', 'o', 'r', 'i', 't', 'h', 'm', 'C', 'o', 'n', 's', 't', 'r', 'a', 'i', 'n', 't', 's'], defs := [Rfc3125.AlgorithmConstraints] },
   { name := ['A', 'l', 'g', 'o', 'r', 'i', 't', 'h', 'm', 'I', 'D', '_', 'S', 'h', 'o', 'r', 't', 'F', 'o', 'r', 'm'], defs := [Rfc8494.AlgorithmID_ShortForm] },
   { name := ['A', 'l', 'g', 'o', 'r', 'i', 't', 'h', 'm', 'I', 'd', 'e', 'n', 't', 'i', 'f', 'i', 'e', 'r'], defs := [Rfc2459.AlgorithmIdentifier, Rfc5280.AlgorithmIdentifier, Rfc3280.AlgorithmIdentifier] },
   { name := ['A', 'l', 'l', 'O', 'r', 'F', 'i', 'r', 's', 't', 'T', 'i', 'e', 'r'], defs := [Rfc2634.AllOrFirstTier] }]

def block1 : List Group :=
  [{ name := ['A', 'm', 'o', 'c', 'o', '_', 'S', 'e', 'c', 'u', 'r', 'i', 't', 'y', 'C', 'l', 'a', 's', 's', 'i', 'f', 'i', 'c', 'a', 't', 'i', 'o', 'n'], defs := [Rfc3114.Amoco_SecurityClassification] },
   { name := ['A', 'n', 'o', 't', 'h', 'e', 'r', 'N', 'a', 'm', 'e'], defs := [Rfc2459.AnotherName, Rfc3280.AnotherName, Rfc5280.AnotherName] },
   { name := ['A', 'p', 'e', 'x', 'C', 'o', 'n', 't', 'i', 'n', 'g', 'e', 'n', 'c', 'y', 'K', 'e', 'y'], defs := [Rfc5934.ApexContingencyKey] },
   { name := ['A', 'p', 'e', 'x', 'U', 'p', 'd', 'a', 't', 'e', 'C', 'o', 'n', 'f', 'i', 'r', 'm'], defs := [Rfc5934.ApexUpdateConfirm] },
   { name := ['A', 'p', 'p', 'l', 'i', 'c', 'a', 't', 'i', 'o', 'n', 'S', 'y', 'n', 't', 'a', 'x'], defs := [Rfc1155.ApplicationSyntax, Rfc1902.ApplicationSyntax],
     apart := [(1, 0, [70, 1, 0])],
     other := [(0, 1)] },
   { name := ['A', 'r', 'c', 'h', 'i', 'v', 'e', 'C', 'u', 't', 'o', 'f', 'f'], defs := [Rfc2560.ArchiveCutoff] },
   { name := ['A', 'r', 'c', 'h', 'i', 'v', 'e', 'T', 'i', 'm', 'e', 'S', 't', 'a', 'm', 'p', 'T', 'o', 'k', 'e', 'n'], defs := [Rfc5652.ContentInfo] },
   { name := ['A', 's', 's', 'e', 'r', 't', 'i', 'o', 'n', 'V', 'a', 'l', 'u', 'e'], defs := [Rfc2251.AssertionValue] },
   { name := ['A', 's', 'y', 'm', 'm', 'e', 't', 'r', 'i', 'c', 'D', 'e', 'c', 'r', 'y', 'p', 't', 'K', 'e', 'y', 'I', 'd', 'e', 'n', 't', 'i', 'f', 'i', 'e', 'r'], defs := [Rfc7030.AsymmetricDecryptKeyIdentifier] },
   { name := ['A', 's', 'y', 'm', 'm', 'e', 't', 'r', 'i', 'c', 'K', 'e', 'y', 'P', 'a', 'c', 'k', 'a', 'g', 'e'], defs := [Rfc5958.AsymmetricKeyPackage] },
   { name := ['A', 't', 't', 'C', 'e', 'r', 't', 'I', 's', 's', 'u', 'e', 'r'], defs := [Rfc3281.AttCertIssuer, Rfc5755.AttCertIssuer] },
   { name := ['A', 't', 't', 'C', 'e', 'r', 't', 'V', 'a', 'l', 'i', 'd', 'i', 't', 'y', 'P', 'e', 'r', 'i', 'o', 'd'], defs := [Rfc3281.AttCertValidityPeriod, Rfc5755.AttCertValidityPeriod] },
   { name := ['A', 't', 't', 'C', 'e', 'r', 't', 'V', 'e', 'r', 's', 'i', 'o', 'n'], defs := [Rfc3281.AttCertVersion, Rfc5755.AttCertVersion] },
   { name := ['A', 't', 't', 'C', 'e', 'r', 't', 'V', 'e', 'r', 's', 'i', 'o', 'n', 'V', '1'], defs := [Rfc3852.AttCertVersionV1, Rfc5652.AttCertVersionV1] },
   { name := ['A', 't', 't', 'r', 'C', 'o', 'n', 's', 't', 'r', 'a', 'i', 'n', 't'], defs := [Rfc6010.AttrConstraint] },
   { name := ['A', 't', 't', 'r', 'C', 'o', 'n', 's', 't', 'r', 'a', 'i', 'n', 't', 'L', 'i', 's', 't'], defs := [Rfc6010.AttrConstraintList] },
   { name := ['A', 't', 't', 'r', 'O', 'r', 'O', 'I', 'D'], defs := [Rfc7030.AttrOrOID] },
   { name := ['A', 't', 't', 'r', 'S', 'p', 'e', 'c'], defs := [Rfc3281.AttrSpec, Rfc5755.AttrSpec] },
   { name := ['A', 't', 't', 'r', 'i', 'b', 'u', 't', 'e'], defs := [Rfc2251.Attribute, Rfc2315.Attribute, Rfc2459.Attribute, Rfc5280.Attribute, Rfc3280.Attribute, Rfc3852.Attribute, Rfc5652.Attribute, Rfc7191.SingleAttribute],
     apart := [(0, 1, [48, 4, 4, 0, 49, 0]),
       (0, 2, [48, 4, 4, 0, 49, 0]),
       (0, 3, [48, 4, 4, 0, 49, 0]),
       (0, 4, [48, 4, 4, 0, 49, 0]),
       (0, 5, [48, 4, 4, 0, 49, 0]),
       (0, 6, [48, 4, 4, 0, 49, 0]),
       (0, 7, [48, 4, 4, 0, 49, 0]),
       (1, 0, [48, 5, 6, 1, 42, 49, 0]),
       (2, 0, [48, 5, 6, 1, 42, 49, 0]),
       (3, 0, [48, 5, 6, 1, 42, 49, 0]),
       (4, 0, [48, 5, 6, 1, 42, 49, 0]),
       (5, 0, [48, 5, 6, 1, 42, 49, 0]),
       (6, 0, [48, 5, 6, 1, 42, 49, 0]),
       (7, 0, [48, 7, 6, 1, 42, 49, 2, 5, 0])] },
   { name := ['A', 't', 't', 'r', 'i', 'b', 'u', 't', 'e', 'C', 'e', 'r', 't', 'i', 'f', 'i', 'c', 'a', 't', 'e'], defs := [Rfc3281.AttributeCertificate, Rfc5755.AttributeCertificate] },
   { name := ['A', 't', 't', 'r', 'i', 'b', 'u', 't', 'e', 'C', 'e', 'r', 't', 'i', 'f', 'i', 'c', 'a', 't', 'e', 'I', 'n', 'f', 'o'], defs := [Rfc3281.AttributeCertificateInfo, Rfc5755.AttributeCertificateInfo] },
   { name := ['A', 't', 't', 'r', 'i', 'b', 'u', 't', 'e', 'C', 'e', 'r', 't', 'i', 'f', 'i', 'c', 'a', 't', 'e', 'I', 'n', 'f', 'o', 'V', '1'], defs := [Rfc3852.AttributeCertificateInfoV1, Rfc5652.AttributeCertificateInfoV1] },
   { name := ['A', 't', 't', 'r', 'i', 'b', 'u', 't', 'e', 'C', 'e', 'r', 't', 'i', 'f', 'i', 'c', 'a', 't', 'e', 'R', 'e', 'f', 's'], defs := [Rfc5126.AttributeCertificateRefs] },
   { name := ['A', 't', 't', 'r', 'i', 'b', 'u', 't', 'e', 'C', 'e', 'r', 't', 'i', 'f', 'i', 'c', 'a', 't', 'e', 'V', '1'], defs := [Rfc3852.AttributeCertificateV1, Rfc5652.AttributeCertificateV1] },
   { name := ['A', 't', 't', 'r', 'i', 'b', 'u', 't', 'e', 'C', 'e', 'r', 't', 'i', 'f', 'i', 'c', 'a', 't', 'e', 'V', '2'], defs := [Rfc3281.AttributeCertificate] },
   { name := ['A', 't', 't', 'r', 'i', 'b', 'u', 't', 'e', 'C', 'o', 'n', 's', 't', 'r', 'a', 'i', 'n', 't', 's'], defs := [Rfc3125.AttributeConstraints] },
   { name := ['A', 't', 't', 'r', 'i', 'b', 'u', 't', 'e', 'D', 'e', 's', 'c', 'r', 'i', 'p', 't', 'i', 'o', 'n'], defs := [Rfc2251.LDAPString] },
   { name := ['A', 't', 't', 'r', 'i', 'b', 'u', 't', 'e', 'D', 'e', 's', 'c', 'r', 'i', 'p', 't', 'i', 'o', 'n', 'L', 'i', 's', 't'], defs := [Rfc2251.AttributeDescriptionList] },
   { name := ['A', 't', 't', 'r', 'i', 'b', 'u', 't', 'e', 'L', 'i', 's', 't'], defs := [Rfc2251.AttributeList] },
   { name := ['A', 't', 't', 'r', 'i', 'b', 'u', 't', 'e', 'R', 'e', 'v', 'o', 'c', 'a', 't', 'i', 'o', 'n', 'R', 'e', 'f', 's'], defs := [Rfc5126.AttributeRevocationRefs] },
   { name := ['A', 't', 't', 'r', 'i', 'b', 'u', 't', 'e', 'S', 'e', 't'], defs := [Rfc2985.AttributeSet] },
   { name := ['A', 't', 't', 'r', 'i', 'b', 'u', 't', 'e', 'T', 'r', 'u', 's', 't', 'C', 'o', 'n', 'd', 'i', 't', 'i', 'o', 'n'], defs := [Rfc3125.AttributeTrustCondition] }]

def block2 : List Group :=
  [{ name := ['A', 't', 't', 'r', 'i', 'b', 'u', 't', 'e', 'T', 'y', 'p', 'e'], defs := [Rfc2251.LDAPString, Rfc2459.AttributeType, Rfc2985.AttributeType, Rfc5280.AttributeType, Rfc3280.AttributeType, Rfc6031.AttributeType, Rfc7292.AttributeType],
     apart := [(0, 1, [4, 0]),
       (0, 2, [4, 0]),
       (0, 3, [4, 0]),
       (0, 4, [4, 0]),
       (0, 5, [4, 0]),
       (0, 6, [4, 0]),
       (1, 0, [6, 1, 43]),
       (2, 0, [6, 1, 43]),
       (3, 0, [6, 1, 43]),
       (4, 0, [6, 1, 43]),
       (5, 0, [6, 1, 43]),
       (6, 0, [6, 1, 43])] },
   { name := ['A', 't', 't', 'r', 'i', 'b', 'u', 't', 'e', 'T', 'y', 'p', 'e', 'A', 'n', 'd', 'V', 'a', 'l', 'u', 'e'], defs := [Rfc2459.AttributeTypeAndValue, Rfc5280.AttributeTypeAndValue, Rfc3280.AttributeTypeAndValue, Rfc4211.AttributeTypeAndValue] },
   { name := ['A', 't', 't', 'r', 'i', 'b', 'u', 't', 'e', 'T', 'y', 'p', 'e', 'A', 'n', 'd', 'V', 'a', 'l', 'u', 'e', 's'], defs := [Rfc2251.AttributeTypeAndValues] },
   { name := ['A', 't', 't', 'r', 'i', 'b', 'u', 't', 'e', 'T', 'y', 'p', 'e', 'C', 'o', 'n', 's', 't', 'r', 'a', 'i', 'n', 't', 's'], defs := [Rfc3125.AttributeTypeConstraints] },
   { name := ['A', 't', 't', 'r', 'i', 'b', 'u', 't', 'e', 'V', 'a', 'l', 'u', 'e'], defs := [Rfc2251.AttributeValue, Rfc2459.AttributeValue, Rfc2985.AttributeValue, Rfc5280.AttributeValue, Rfc3280.AttributeValue, Rfc3852.AttributeValue, Rfc5652.AttributeValue, Rfc6031.AttributeValue, Rfc6402.AttributeValue, Rfc7191.AttributeValue, Rfc7292.AttributeValue],
     apart := [(1, 0, [5, 0]),
       (2, 0, [5, 0]),
       (3, 0, [5, 0]),
       (4, 0, [5, 0]),
       (5, 0, [5, 0]),
       (6, 0, [5, 0]),
       (7, 0, [5, 0]),
       (8, 0, [5, 0]),
       (9, 0, [5, 0]),
       (10, 0, [5, 0])] },
   { name := ['A', 't', 't', 'r', 'i', 'b', 'u', 't', 'e', 'V', 'a', 'l', 'u', 'e', 'A', 's', 's', 'e', 'r', 't', 'i', 'o', 'n'], defs := [Rfc2251.AttributeValueAssertion, Rfc2315.AttributeValueAssertion],
     apart := [(0, 1, [48, 4, 4, 0, 4, 0]),
       (1, 0, [48, 5, 6, 1, 42, 5, 0])] },
   { name := ['A', 't', 't', 'r', 'i', 'b', 'u', 't', 'e', 'V', 'a', 'l', 'u', 'e', 'C', 'o', 'n', 's', 't', 'r', 'a', 'i', 'n', 't', 's'], defs := [Rfc3125.AttributeValueConstraints] },
   { name := ['A', 't', 't', 'r', 'i', 'b', 'u', 't', 'e', 'V', 'a', 'l', 'u', 'e', 's'], defs := [Rfc2985.AttributeValues, Rfc7191.AttributeValues, Rfc7292.AttributeValues] },
   { name := ['A', 't', 't', 'r', 'i', 'b', 'u', 't', 'e', 's'], defs := [Rfc2314.Attributes, Rfc2315.Attributes, Rfc2986.Attributes, Rfc4211.Attributes, Rfc5208.Attributes, Rfc5958.Attributes],
     apart := [(0, 4, [49, 7, 48, 5, 6, 1, 42, 49, 0]),
       (1, 4, [49, 7, 48, 5, 6, 1, 42, 49, 0]),
       (2, 4, [49, 7, 48, 5, 6, 1, 42, 49, 0]),
       (3, 4, [49, 7, 48, 5, 6, 1, 42, 49, 0]),
       (4, 0, [49, 6, 48, 4, 4, 0, 49, 0]),
       (4, 1, [49, 6, 48, 4, 4, 0, 49, 0]),
       (4, 2, [49, 6, 48, 4, 4, 0, 49, 0]),
       (4, 3, [49, 6, 48, 4, 4, 0, 49, 0]),
       (4, 5, [49, 6, 48, 4, 4, 0, 49, 0]),
       (5, 4, [49, 7, 48, 5, 6, 1, 42, 49, 0])] },
   { name := ['A', 'u', 't', 'h', 'A', 't', 't', 'r', 'i', 'b', 'u', 't', 'e', 's'], defs := [Rfc3852.AuthAttributes, Rfc5652.AuthAttributes] },
   { name := ['A', 'u', 't', 'h', 'E', 'n', 'v', 'e', 'l', 'o', 'p', 'e', 'd', 'D', 'a', 't', 'a'], defs := [Rfc5083.AuthEnvelopedData] },
   { name := ['A', 'u', 't', 'h', 'P', 'u', 'b', 'l', 'i', 's', 'h'], defs := [Rfc6402.BodyPartID] },
   { name := ['A', 'u', 't', 'h', 'e', 'n', 't', 'i', 'c', 'a', 't', 'e', 'd', 'D', 'a', 't', 'a'], defs := [Rfc3852.AuthenticatedData, Rfc5652.AuthenticatedData] },
   { name := ['A', 'u', 't', 'h', 'e', 'n', 't', 'i', 'c', 'a', 't', 'e', 'd', 'S', 'a', 'f', 'e'], defs := [Rfc7292.AuthenticatedSafe] },
   { name := ['A', 'u', 't', 'h', 'e', 'n', 't', 'i', 'c', 'a', 't', 'i', 'o', 'n', 'C', 'h', 'o', 'i', 'c', 'e'], defs := [Rfc2251.AuthenticationChoice] },
   { name := ['A', 'u', 't', 'h', 'e', 'n', 't', 'i', 'c', 'a', 't', 'i', 'o', 'n', 'C', 'o', 'n', 't', 'e', 'x', 't'], defs := [Rfc7773.AuthenticationContext] },
   { name := ['A', 'u', 't', 'h', 'e', 'n', 't', 'i', 'c', 'a', 't', 'i', 'o', 'n', 'C', 'o', 'n', 't', 'e', 'x', 't', 's'], defs := [Rfc7773.AuthenticationContexts] },
   { name := ['A', 'u', 't', 'h', 'e', 'n', 't', 'i', 'c', 'a', 't', 'o', 'r'], defs := [Rfc2511.Authenticator, Rfc4211.Authenticator] },
   { name := ['A', 'u', 't', 'h', 'o', 'r', 'i', 't', 'y', 'C', 'l', 'e', 'a', 'r', 'a', 'n', 'c', 'e', 'C', 'o', 'n', 's', 't', 'r', 'a', 'i', 'n', 't', 's'], defs := [Rfc5913.AuthorityClearanceConstraints] },
   { name := ['A', 'u', 't', 'h', 'o', 'r', 'i', 't', 'y', 'I', 'n', 'f', 'o', 'A', 'c', 'c', 'e', 's', 's', 'S', 'y', 'n', 't', 'a', 'x'], defs := [Rfc2459.AuthorityInfoAccessSyntax, Rfc3280.AuthorityInfoAccessSyntax, Rfc5280.AuthorityInfoAccessSyntax],
     apart := [(0, 1, [48, 12, 48, 10, 6, 1, 42, 165, 5, 161, 3, 22, 1, 65]),
       (0, 2, [48, 12, 48, 10, 6, 1, 42, 165, 5, 161, 3, 22, 1, 65]),
       (1, 0, [48, 20, 48, 18, 6, 1, 42, 163, 13, 48, 0, 49, 9, 48, 7, 128, 1, 0, 161, 2, 5, 0]),
       (2, 0, [48, 20, 48, 18, 6, 1, 42, 163, 13, 48, 0, 49, 9, 48, 7, 128, 1, 0, 161, 2, 5, 0])] },
   { name := ['A', 'u', 't', 'h', 'o', 'r', 'i', 't', 'y', 'K', 'e', 'y', 'I', 'd', 'e', 'n', 't', 'i', 'f', 'i', 'e', 'r'], defs := [Rfc2459.AuthorityKeyIdentifier, Rfc3280.AuthorityKeyIdentifier, Rfc5280.AuthorityKeyIdentifier],
     apart := [(0, 1, [48, 9, 161, 7, 165, 5, 161, 3, 22, 1, 65]),
       (0, 2, [48, 9, 161, 7, 165, 5, 161, 3, 22, 1, 65]),
       (1, 0, [48, 17, 161, 15, 163, 13, 48, 0, 49, 9, 48, 7, 128, 1, 0, 161, 2, 5, 0]),
       (2, 0, [48, 17, 161, 15, 163, 13, 48, 0, 49, 9, 48, 7, 128, 1, 0, 161, 2, 5, 0])] },
   { name := ['B', 'A', 'G', '_', 'T', 'Y', 'P', 'E'], defs := [Rfc7292.BAG_TYPE] },
   { name := ['B', 'M', 'P', 'S', 't', 'r', 'i', 'n', 'g'], defs := [Rfc2459.BMPString] },
   { name := ['B', 'a', 's', 'e', 'C', 'R', 'L', 'N', 'u', 'm', 'b', 'e', 'r'], defs := [Rfc2459.CRLNumber, Rfc3280.CRLNumber, Rfc5280.CRLNumber],
     apart := [(1, 0, [2, 1, 0]),
       (2, 0, [2, 1, 0])] },
   { name := ['B', 'a', 's', 'e', 'D', 'i', 's', 't', 'a', 'n', 'c', 'e'], defs := [Rfc2459.BaseDistance, Rfc3125.BaseDistance, Rfc3280.BaseDistance, Rfc5280.BaseDistance] },
   { name := ['B', 'a', 's', 'i', 'c', 'C', 'o', 'n', 's', 't', 'r', 'a', 'i', 'n', 't', 's'], defs := [Rfc2459.BasicConstraints, Rfc3280.BasicConstraints, Rfc5280.BasicConstraints] },
   { name := ['B', 'a', 's', 'i', 'c', 'O', 'C', 'S', 'P', 'R', 'e', 's', 'p', 'o', 'n', 's', 'e'], defs := [Rfc2560.BasicOCSPResponse, Rfc6960.BasicOCSPResponse] },
   { name := ['B', 'i', 'n', 'a', 'r', 'y', 'S', 'i', 'g', 'n', 'i', 'n', 'g', 'T', 'i', 'm', 'e'], defs := [Rfc6019.BinaryTime] },
   { name := ['B', 'i', 'n', 'a', 'r', 'y', 'T', 'i', 'm', 'e'], defs := [Rfc6019.BinaryTime] },
   { name := ['B', 'i', 'n', 'd', 'R', 'e', 'q', 'u', 'e', 's', 't'], defs := [Rfc2251.BindRequest] },
   { name := ['B', 'i', 'n', 'd', 'R', 'e', 's', 'p', 'o', 'n', 's', 'e'], defs := [Rfc2251.BindResponse] },
   { name := ['B', 'i', 'o', 'm', 'e', 't', 'r', 'i', 'c', 'D', 'a', 't', 'a'], defs := [Rfc3739.BiometricData] }]

def block3 : List Group :=
  [{ name := ['B', 'i', 'o', 'm', 'e', 't', 'r', 'i', 'c', 'S', 'y', 'n', 't', 'a', 'x'], defs := [Rfc3739.BiometricSyntax] },
   { name := ['B', 'i', 't', 's'], defs := [Rfc1902.Bits] },
   { name := ['B', 'l', 'i', 'n', 'e', 'd', 'C', 'e', 'r', 't', 'i', 'f', 'i', 'c', 'a', 't', 'e', 'H', 'a', 's', 'h'], defs := [Rfc5636.BlinedCertificateHash] },
   { name := ['B', 'o', 'd', 'y', 'P', 'a', 'r', 't', 'I', 'D'], defs := [Rfc6402.BodyPartID] },
   { name := ['B', 'o', 'd', 'y', 'P', 'a', 'r', 't', 'L', 'i', 's', 't'], defs := [Rfc6402.BodyPartList] },
   { name := ['B', 'o', 'd', 'y', 'P', 'a', 'r', 't', 'P', 'a', 't', 'h'], defs := [Rfc6402.BodyPartPath] },
   { name := ['B', 'o', 'd', 'y', 'P', 'a', 'r', 't', 'R', 'e', 'f', 'e', 'r', 'e', 'n', 'c', 'e'], defs := [Rfc6402.BodyPartReference] },
   { name := ['B', 'u', 'i', 'l', 't', 'I', 'n', 'D', 'o', 'm', 'a', 'i', 'n', 'D', 'e', 'f', 'i', 'n', 'e', 'd', 'A', 't', 't', 'r', 'i', 'b', 'u', 't', 'e'], defs := [Rfc2459.BuiltInDomainDefinedAttribute, Rfc3280.BuiltInDomainDefinedAttribute, Rfc5280.BuiltInDomainDefinedAttribute] },
   { name := ['B', 'u', 'i', 'l', 't', 'I', 'n', 'D', 'o', 'm', 'a', 'i', 'n', 'D', 'e', 'f', 'i', 'n', 'e', 'd', 'A', 't', 't', 'r', 'i', 'b', 'u', 't', 'e', 's'], defs := [Rfc2459.BuiltInDomainDefinedAttributes, Rfc3280.BuiltInDomainDefinedAttributes, Rfc5280.BuiltInDomainDefinedAttributes] },
   { name := ['B', 'u', 'i', 'l', 't', 'I', 'n', 'S', 't', 'a', 'n', 'd', 'a', 'r', 'd', 'A', 't', 't', 'r', 'i', 'b', 'u', 't', 'e', 's'], defs := [Rfc2459.BuiltInStandardAttributes, Rfc3280.BuiltInStandardAttributes, Rfc5280.BuiltInStandardAttributes],
     apart := [(0, 1, [48, 5, 163, 3, 19, 1, 48]),
       (0, 2, [48, 5, 163, 3, 19, 1, 48]),
       (1, 0, [48, 3, 129, 1, 48]),
       (2, 0, [48, 3, 129, 1, 48])] },
   { name := ['B', 'u', 'l', 'k', 'P', 'D', 'U'], defs := [Rfc1905.BulkPDU] },
   { name := ['C', 'A', 'K', 'e', 'y', 'U', 'p', 'd', 'A', 'n', 'n', 'C', 'o', 'n', 't', 'e', 'n', 't'], defs := [Rfc4210.CAKeyUpdAnnContent] },
   { name := ['C', 'B', 'C', 'P', 'a', 'r', 'a', 'm', 'e', 't', 'e', 'r'], defs := [Rfc5753.IV] },
   { name := ['C', 'C', 'M', 'P', 'a', 'r', 'a', 'm', 'e', 't', 'e', 'r', 's'], defs := [Rfc5084.CCMParameters] },
   { name := ['C', 'M', 'C', 'C', 'e', 'r', 't', 'I', 'd'], defs := [Rfc5652.IssuerAndSerialNumber] },
   { name := ['C', 'M', 'C', 'F', 'a', 'i', 'l', 'I', 'n', 'f', 'o'], defs := [Rfc6402.CMCFailInfo] },
   { name := ['C', 'M', 'C', 'P', 'u', 'b', 'l', 'i', 'c', 'a', 't', 'i', 'o', 'n', 'I', 'n', 'f', 'o'], defs := [Rfc6402.CMCPublicationInfo] },
   { name := ['C', 'M', 'C', 'S', 't', 'a', 't', 'u', 's'], defs := [Rfc6402.CMCStatus] },
   { name := ['C', 'M', 'C', 'S', 't', 'a', 't', 'u', 's', 'I', 'n', 'f', 'o'], defs := [Rfc6402.CMCStatusInfo] },
   { name := ['C', 'M', 'C', 'S', 't', 'a', 't', 'u', 's', 'I', 'n', 'f', 'o', 'V', '2'], defs := [Rfc6402.CMCStatusInfoV2] },
   { name := ['C', 'M', 'C', 'U', 'n', 's', 'i', 'g', 'n', 'e', 'd', 'D', 'a', 't', 'a'], defs := [Rfc6402.CMCUnsignedData] },
   { name := ['C', 'M', 'P', 'C', 'e', 'r', 't', 'i', 'f', 'i', 'c', 'a', 't', 'e'], defs := [Rfc2459.Certificate] },
   { name := ['C', 'M', 'S', 'A', 'l', 'g', 'o', 'r', 'i', 't', 'h', 'm', 'P', 'r', 'o', 't', 'e', 'c', 't', 'i', 'o', 'n'], defs := [Rfc6211.CMSAlgorithmProtection] },
   { name := ['C', 'M', 'S', 'A', 't', 't', 'r', 'i', 'b', 'u', 't', 'e'], defs := [Rfc5652.Attribute] },
   { name := ['C', 'M', 'S', 'A', 't', 't', 'r', 's'], defs := [Rfc3125.CMSAttrs] },
   { name := ['C', 'M', 'S', 'C', 'o', 'n', 't', 'e', 'n', 't', 'C', 'o', 'n', 's', 't', 'r', 'a', 'i', 'n', 't', 's'], defs := [Rfc6010.CMSContentConstraints] },
   { name := ['C', 'M', 'S', 'O', 'R', 'I', 'f', 'o', 'r', 'P', 'S', 'K', 'O', 't', 'h', 'e', 'r', 'I', 'n', 'f', 'o'], defs := [Rfc8696.CMSORIforPSKOtherInfo] },
   { name := ['C', 'M', 'S', 'S', 'i', 'n', 'g', 'l', 'e', 'A', 't', 't', 'r', 'i', 'b', 'u', 't', 'e'], defs := [Rfc2985.CMSSingleAttribute, Rfc7292.CMSSingleAttribute] },
   { name := ['C', 'M', 'S', 'V', 'e', 'r', 's', 'i', 'o', 'n'], defs := [Rfc3852.CMSVersion, Rfc5652.CMSVersion] },
   { name := ['C', 'P', 'S', 'u', 'r', 'i'], defs := [Rfc2459.CPSuri, Rfc3280.CPSuri, Rfc5280.CPSuri] },
   { name := ['C', 'R', 'L', 'A', 'n', 'n', 'C', 'o', 'n', 't', 'e', 'n', 't'], defs := [Rfc4210.CRLAnnContent] },
   { name := ['C', 'R', 'L', 'B', 'a', 'g'], defs := [Rfc7292.CRLBag] }]

def block4 : List Group :=
  [{ name := ['C', 'R', 'L', 'D', 'i', 's', 't', 'P', 'o', 'i', 'n', 't', 's', 'S', 'y', 'n', 't', 'a', 'x'], defs := [Rfc2459.CRLDistPointsSyntax] },
   { name := ['C', 'R', 'L', 'D', 'i', 's', 't', 'r', 'i', 'b', 'u', 't', 'i', 'o', 'n', 'P', 'o', 'i', 'n', 't', 's'], defs := [Rfc3280.CRLDistributionPoints, Rfc5280.CRLDistributionPoints] },
   { name := ['C', 'R', 'L', 'E', 'n', 't', 'r', 'y'], defs := [Rfc2315.CRLEntry] },
   { name := ['C', 'R', 'L', 'L', 'i', 's', 't', 'I', 'D'], defs := [Rfc5126.CRLListID] },
   { name := ['C', 'R', 'L', 'N', 'u', 'm', 'b', 'e', 'r'], defs := [Rfc2459.CRLNumber, Rfc3280.CRLNumber, Rfc5280.CRLNumber],
     apart := [(1, 0, [2, 1, 0]),
       (2, 0, [2, 1, 0])] },
   { name := ['C', 'R', 'L', 'R', 'e', 'a', 's', 'o', 'n'], defs := [Rfc2459.CRLReason, Rfc2560.CRLReason, Rfc3280.CRLReason, Rfc5280.CRLReason] },
   { name := ['C', 'a', 'm', 'e', 'l', 'l', 'i', 'a', 'S', 'M', 'i', 'm', 'e', 'C', 'a', 'p', 'a', 'b', 'i', 'l', 'i', 't', 'y'], defs := [Rfc3657.CamelliaSMimeCapability] },
   { name := ['C', 'a', 'm', 'e', 'l', 'l', 'i', 'a', '_', 'I', 'V'], defs := [Rfc3657.Camellia_IV] },
   { name := ['C', 'a', 'm', 'e', 'l', 'l', 'i', 'a', '_', 'K', 'e', 'y', 'W', 'r', 'a', 'p', 'p', 'i', 'n', 'g', 'S', 'c', 'h', 'e', 'm', 'e'], defs := [Rfc5280.AlgorithmIdentifier] },
   { name := ['C', 'a', 't', 'e', 'r', 'p', 'i', 'l', 'l', 'a', 'r', '_', 'S', 'e', 'c', 'u', 'r', 'i', 't', 'y', 'C', 'l', 'a', 's', 's', 'i', 'f', 'i', 'c', 'a', 't', 'i', 'o', 'n'], defs := [Rfc3114.Caterpillar_SecurityClassification] },
   { name := ['C', 'e', 'r', 't', 'A', 'n', 'n', 'C', 'o', 'n', 't', 'e', 'n', 't'], defs := [Rfc2459.Certificate] },
   { name := ['C', 'e', 'r', 't', 'B', 'a', 'g'], defs := [Rfc7292.CertBag] },
   { name := ['C', 'e', 'r', 't', 'C', 'o', 'n', 'f', 'i', 'r', 'm', 'C', 'o', 'n', 't', 'e', 'n', 't'], defs := [Rfc4210.CertConfirmContent] },
   { name := ['C', 'e', 'r', 't', 'I', 'D'], defs := [Rfc2560.CertID, Rfc6960.CertID] },
   { name := ['C', 'e', 'r', 't', 'I', 'd'], defs := [Rfc2511.CertId, Rfc4211.CertId],
     apart := [(0, 1, [48, 5, 4, 0, 2, 1, 1]),
       (1, 0, [48, 5, 130, 0, 2, 1, 255])] },
   { name := ['C', 'e', 'r', 't', 'I', 'n', 'f', 'o', 'R', 'e', 'q'], defs := [Rfc3125.CertInfoReq] },
   { name := ['C', 'e', 'r', 't', 'O', 'r', 'E', 'n', 'c', 'C', 'e', 'r', 't'], defs := [Rfc4210.CertOrEncCert] },
   { name := ['C', 'e', 'r', 't', 'P', 'a', 't', 'h', 'C', 'o', 'n', 't', 'r', 'o', 'l', 's'], defs := [Rfc5914.CertPathControls] },
   { name := ['C', 'e', 'r', 't', 'P', 'o', 'l', 'i', 'c', 'y', 'F', 'l', 'a', 'g', 's'], defs := [Rfc5914.CertPolicyFlags] },
   { name := ['C', 'e', 'r', 't', 'P', 'o', 'l', 'i', 'c', 'y', 'I', 'd'], defs := [Rfc2459.CertPolicyId, Rfc3125.CertPolicyId, Rfc3280.CertPolicyId, Rfc5280.CertPolicyId] },
   { name := ['C', 'e', 'r', 't', 'R', 'e', 'f', 'R', 'e', 'q'], defs := [Rfc3125.CertRefReq] },
   { name := ['C', 'e', 'r', 't', 'R', 'e', 'p', 'M', 'e', 's', 's', 'a', 'g', 'e'], defs := [Rfc4210.CertRepMessage] },
   { name := ['C', 'e', 'r', 't', 'R', 'e', 'q'], defs := [Rfc2511.CertRequest, Rfc4211.CertRequest] },
   { name := ['C', 'e', 'r', 't', 'R', 'e', 'q', 'M', 'e', 's', 's', 'a', 'g', 'e', 's'], defs := [Rfc2511.CertReqMessages, Rfc4211.CertReqMessages],
     apart := [(0, 1, [48, 33, 48, 31, 48, 5, 2, 1, 255, 48, 0, 161, 22, 160, 12, 128, 0, 48, 8, 48, 3, 6, 1, 42, 3, 1, 0, 48, 3, 6, 1, 42, 3, 1, 0]),
       (1, 0, [48, 21, 48, 19, 48, 5, 2, 1, 255, 48, 0, 162, 10, 163, 8, 48, 3, 6, 1, 42, 3, 1, 0])] },
   { name := ['C', 'e', 'r', 't', 'R', 'e', 'q', 'M', 's', 'g'], defs := [Rfc2511.CertReqMsg, Rfc4211.CertReqMsg],
     apart := [(0, 1, [48, 31, 48, 5, 2, 1, 255, 48, 0, 161, 22, 160, 12, 128, 0, 48, 8, 48, 3, 6, 1, 42, 3, 1, 0, 48, 3, 6, 1, 42, 3, 1, 0]),
       (1, 0, [48, 19, 48, 5, 2, 1, 255, 48, 0, 162, 10, 163, 8, 48, 3, 6, 1, 42, 3, 1, 0])] },
   { name := ['C', 'e', 'r', 't', 'R', 'e', 'q', 'u', 'e', 's', 't'], defs := [Rfc2511.CertRequest, Rfc4211.CertRequest] },
   { name := ['C', 'e', 'r', 't', 'R', 'e', 's', 'p', 'o', 'n', 's', 'e'], defs := [Rfc4210.CertResponse] },
   { name := ['C', 'e', 'r', 't', 'R', 'e', 'v', 'R', 'e', 'q'], defs := [Rfc3125.CertRevReq] },
   { name := ['C', 'e', 'r', 't', 'S', 't', 'a', 't', 'u', 's'], defs := [Rfc2560.CertStatus, Rfc4210.CertStatus],
     apart := [(0, 1, [130, 0]),
       (1, 0, [48, 5, 4, 0, 2, 1, 7])] },
   { name := ['C', 'e', 'r', 't', 'T', 'e', 'm', 'p', 'l', 'a', 't', 'e'], defs := [Rfc2511.CertTemplate, Rfc4211.CertTemplate] },
   { name := ['C', 'e', 'r', 't', 'i', 'f', 'i', 'c', 'a', 't', 'e'], defs := [Rfc2459.Certificate, Rfc5280.Certificate, Rfc3280.Certificate] },
   { name := ['C', 'e', 'r', 't', 'i', 'f', 'i', 'c', 'a', 't', 'e', 'B', 'u', 'n', 'd', 'l', 'e'], defs := [Rfc7296.CertificateBundle] }]

def block5 : List Group :=
  [{ name := ['C', 'e', 'r', 't', 'i', 'f', 'i', 'c', 'a', 't', 'e', 'C', 'h', 'o', 'i', 'c', 'e', 's'], defs := [Rfc3852.CertificateChoices, Rfc5652.CertificateChoices] },
   { name := ['C', 'e', 'r', 't', 'i', 'f', 'i', 'c', 'a', 't', 'e', 'I', 's', 's', 'u', 'e', 'r'], defs := [Rfc2459.GeneralNames, Rfc3280.GeneralNames, Rfc5280.GeneralNames],
     apart := [(0, 1, [48, 7, 165, 5, 161, 3, 22, 1, 65]),
       (0, 2, [48, 7, 165, 5, 161, 3, 22, 1, 65]),
       (1, 0, [48, 7, 163, 5, 48, 3, 128, 1, 65]),
       (2, 0, [48, 7, 163, 5, 48, 3, 128, 1, 65])] },
   { name := ['C', 'e', 'r', 't', 'i', 'f', 'i', 'c', 'a', 't', 'e', 'L', 'i', 's', 't'], defs := [Rfc2459.CertificateList, Rfc5280.CertificateList, Rfc3280.CertificateList] },
   { name := ['C', 'e', 'r', 't', 'i', 'f', 'i', 'c', 'a', 't', 'e', 'O', 'r', 'C', 'R', 'L'], defs := [Rfc7296.CertificateOrCRL] },
   { name := ['C', 'e', 'r', 't', 'i', 'f', 'i', 'c', 'a', 't', 'e', 'P', 'o', 'l', 'i', 'c', 'i', 'e', 's'], defs := [Rfc2459.CertificatePolicies, Rfc3280.CertificatePolicies, Rfc5280.CertificatePolicies],
     apart := [(1, 0, [48, 14, 48, 12, 6, 1, 42, 48, 7, 48, 5, 6, 1, 43, 5, 0]),
       (2, 0, [48, 14, 48, 12, 6, 1, 42, 48, 7, 48, 5, 6, 1, 43, 5, 0])] },
   { name := ['C', 'e', 'r', 't', 'i', 'f', 'i', 'c', 'a', 't', 'e', 'R', 'e', 'v', 'o', 'c', 'a', 't', 'i', 'o', 'n', 'L', 'i', 's', 't'], defs := [Rfc2315.CertificateRevocationList] },
   { name := ['C', 'e', 'r', 't', 'i', 'f', 'i', 'c', 'a', 't', 'e', 'R', 'e', 'v', 'o', 'c', 'a', 't', 'i', 'o', 'n', 'L', 'i', 's', 't', 's'], defs := [Rfc2315.CertificateRevocationLists] },
   { name := ['C', 'e', 'r', 't', 'i', 'f', 'i', 'c', 'a', 't', 'e', 'S', 'e', 'r', 'i', 'a', 'l', 'N', 'u', 'm', 'b', 'e', 'r'], defs := [Rfc2459.CertificateSerialNumber, Rfc5280.CertificateSerialNumber, Rfc3280.CertificateSerialNumber] },
   { name := ['C', 'e', 'r', 't', 'i', 'f', 'i', 'c', 'a', 't', 'e', 'S', 'e', 't'], defs := [Rfc3852.CertificateSet, Rfc5652.CertificateSet] },
   { name := ['C', 'e', 'r', 't', 'i', 'f', 'i', 'c', 'a', 't', 'e', 'T', 'r', 'u', 's', 't', 'P', 'o', 'i', 'n', 't'], defs := [Rfc3125.CertificateTrustPoint] },
   { name := ['C', 'e', 'r', 't', 'i', 'f', 'i', 'c', 'a', 't', 'e', 'T', 'r', 'u', 's', 't', 'T', 'r', 'e', 'e', 's'], defs := [Rfc3125.CertificateTrustTrees] },
   { name := ['C', 'e', 'r', 't', 'i', 'f', 'i', 'c', 'a', 't', 'e', 'V', 'a', 'l', 'u', 'e', 's'], defs := [Rfc5126.CertificateValues] },
   { name := ['C', 'e', 'r', 't', 'i', 'f', 'i', 'c', 'a', 't', 'e', 's'], defs := [Rfc5275.Certificates] },
   { name := ['C', 'e', 'r', 't', 'i', 'f', 'i', 'c', 'a', 't', 'i', 'o', 'n', 'R', 'e', 'q', 'u', 'e', 's', 't'], defs := [Rfc2314.CertificationRequest, Rfc2986.CertificationRequest, Rfc6402.CertificationRequest] },
   { name := ['C', 'e', 'r', 't', 'i', 'f', 'i', 'c', 'a', 't', 'i', 'o', 'n', 'R', 'e', 'q', 'u', 'e', 's', 't', 'I', 'n', 'f', 'o'], defs := [Rfc2314.CertificationRequestInfo, Rfc2986.CertificationRequestInfo] },
   { name := ['C', 'e', 'r', 't', 'i', 'f', 'i', 'e', 'd', 'A', 't', 't', 'r', 'i', 'b', 'u', 't', 'e', 's'], defs := [Rfc5755.AttributeCertificate] },
   { name := ['C', 'e', 'r', 't', 'i', 'f', 'i', 'e', 'd', 'K', 'e', 'y', 'P', 'a', 'i', 'r'], defs := [Rfc4210.CertifiedKeyPair] },
   { name := ['C', 'h', 'a', 'l', 'l', 'e', 'n', 'g', 'e'], defs := [Rfc4210.Challenge] },
   { name := ['C', 'h', 'a', 'l', 'l', 'e', 'n', 'g', 'e', 'F', 'o', 'r', 'm', 'a', 't'], defs := [Rfc6031.ChallengeFormat] },
   { name := ['C', 'h', 'a', 'n', 'g', 'e', 'S', 'u', 'b', 'j', 'e', 'c', 't', 'N', 'a', 'm', 'e'], defs := [Rfc6402.ChangeSubjectName] },
   { name := ['C', 'h', 'a', 'r', 'E', 'd', 'i', 't', 'i', 'o', 'n'], defs := [Rfc7906.CharEdition] },
   { name := ['C', 'h', 'a', 'r', 'E', 'd', 'i', 't', 'i', 'o', 'n', 'R', 'a', 'n', 'g', 'e'], defs := [Rfc7906.CharEditionRange] },
   { name := ['C', 'h', 'a', 'r', 'a', 'c', 't', 'e', 'r', 'i', 's', 't', 'i', 'c', '_', 't', 'w', 'o'], defs := [Rfc3279.Characteristic_two] },
   { name := ['C', 'l', 'a', 'i', 'm', 'e', 'd', 'A', 't', 't', 'r', 'i', 'b', 'u', 't', 'e', 's'], defs := [Rfc5126.ClaimedAttributes] },
   { name := ['C', 'l', 'a', 's', 's', 'L', 'i', 's', 't'], defs := [Rfc3281.ClassList, Rfc5755.ClassList] },
   { name := ['C', 'l', 'a', 's', 's', 'i', 'f', 'i', 'c', 'a', 't', 'i', 'o', 'n'], defs := [Rfc2634.ESSSecurityLabel] },
   { name := ['C', 'l', 'e', 'a', 'r', 'a', 'n', 'c', 'e'], defs := [Rfc3281.Clearance, Rfc5755.Clearance],
     apart := [(0, 1, [48, 3, 128, 1, 43]),
       (1, 0, [48, 3, 6, 1, 43])] },
   { name := ['C', 'l', 'e', 'a', 'r', 'a', 'n', 'c', 'e', '_', 'r', 'f', 'c', '3', '2', '8', '1'], defs := [Rfc5755.Clearance_rfc3281] },
   { name := ['C', 'o', 'm', 'm', 'i', 't', 'm', 'e', 'n', 't', 'R', 'u', 'l', 'e'], defs := [Rfc3125.CommitmentRule] },
   { name := ['C', 'o', 'm', 'm', 'i', 't', 'm', 'e', 'n', 't', 'R', 'u', 'l', 'e', 's'], defs := [Rfc3125.CommitmentRules] },
   { name := ['C', 'o', 'm', 'm', 'i', 't', 'm', 'e', 'n', 't', 'T', 'y', 'p', 'e'], defs := [Rfc3125.CommitmentType] },
   { name := ['C', 'o', 'm', 'm', 'i', 't', 'm', 'e', 'n', 't', 'T', 'y', 'p', 'e', 'I', 'd', 'e', 'n', 't', 'i', 'f', 'i', 'e', 'r'], defs := [Rfc3125.CommitmentTypeIdentifier, Rfc5126.CommitmentTypeIdentifier] }]

def block6 : List Group :=
  [{ name := ['C', 'o', 'm', 'm', 'i', 't', 'm', 'e', 'n', 't', 'T', 'y', 'p', 'e', 'I', 'n', 'd', 'i', 'c', 'a', 't', 'i', 'o', 'n'], defs := [Rfc5126.CommitmentTypeIndication] },
   { name := ['C', 'o', 'm', 'm', 'i', 't', 'm', 'e', 'n', 't', 'T', 'y', 'p', 'e', 'Q', 'u', 'a', 'l', 'i', 'f', 'i', 'e', 'r'], defs := [Rfc5126.CommitmentTypeQualifier] },
   { name := ['C', 'o', 'm', 'm', 'o', 'n', 'N', 'a', 'm', 'e'], defs := [Rfc2459.CommonName, Rfc3280.CommonName, Rfc5280.CommonName] },
   { name := ['C', 'o', 'm', 'm', 'o', 'n', 'R', 'u', 'l', 'e', 's'], defs := [Rfc3125.CommonRules] },
   { name := ['C', 'o', 'm', 'm', 'u', 'n', 'i', 't', 'y'], defs := [Rfc1157.Community, Rfc5934.Community],
     apart := [(0, 1, [4, 0]),
       (1, 0, [6, 1, 43])] },
   { name := ['C', 'o', 'm', 'm', 'u', 'n', 'i', 't', 'y', 'C', 'o', 'n', 'f', 'i', 'r', 'm'], defs := [Rfc5934.CommunityConfirm] },
   { name := ['C', 'o', 'm', 'm', 'u', 'n', 'i', 't', 'y', 'I', 'd', 'e', 'n', 't', 'i', 'f', 'i', 'e', 'r'], defs := [Rfc4108.CommunityIdentifier] },
   { name := ['C', 'o', 'm', 'm', 'u', 'n', 'i', 't', 'y', 'I', 'd', 'e', 'n', 't', 'i', 'f', 'i', 'e', 'r', 'L', 'i', 's', 't'], defs := [Rfc5934.CommunityIdentifierList] },
   { name := ['C', 'o', 'm', 'm', 'u', 'n', 'i', 't', 'y', 'I', 'd', 'e', 'n', 't', 'i', 'f', 'i', 'e', 'r', 's'], defs := [Rfc4108.CommunityIdentifiers] },
   { name := ['C', 'o', 'm', 'm', 'u', 'n', 'i', 't', 'y', 'U', 'p', 'd', 'a', 't', 'e', 's'], defs := [Rfc5934.CommunityUpdates] },
   { name := ['C', 'o', 'm', 'p', 'a', 'r', 'e', 'R', 'e', 'q', 'u', 'e', 's', 't'], defs := [Rfc2251.CompareRequest] },
   { name := ['C', 'o', 'm', 'p', 'a', 'r', 'e', 'R', 'e', 's', 'p', 'o', 'n', 's', 'e'], defs := [Rfc2251.CompareResponse] },
   { name := ['C', 'o', 'm', 'p', 'l', 'e', 't', 'e', 'C', 'e', 'r', 't', 'i', 'f', 'i', 'c', 'a', 't', 'e', 'R', 'e', 'f', 's'], defs := [Rfc5126.CompleteCertificateRefs] },
   { name := ['C', 'o', 'm', 'p', 'l', 'e', 't', 'e', 'R', 'e', 'v', 'o', 'c', 'a', 't', 'i', 'o', 'n', 'R', 'e', 'f', 's'], defs := [Rfc5126.CompleteRevocationRefs] },
   { name := ['C', 'o', 'm', 'p', 'r', 'e', 's', 's', 'e', 'd', 'C', 'o', 'n', 't', 'e', 'n', 't', 'I', 'n', 'f', 'o'], defs := [Rfc8494.CompressedContentInfo] },
   { name := ['C', 'o', 'm', 'p', 'r', 'e', 's', 's', 'e', 'd', 'D', 'a', 't', 'a'], defs := [Rfc3274.CompressedData, Rfc8494.CompressedData],
     apart := [(0, 1, [48, 13, 2, 1, 5, 48, 3, 6, 1, 42, 48, 3, 6, 1, 42]),
       (1, 0, [48, 16, 160, 3, 2, 1, 255, 48, 9, 160, 3, 2, 1, 1, 160, 2, 4, 0])] },
   { name := ['C', 'o', 'm', 'p', 'r', 'e', 's', 's', 'i', 'o', 'n', 'A', 'l', 'g', 'o', 'r', 'i', 't', 'h', 'm', 'I', 'd', 'e', 'n', 't', 'i', 'f', 'i', 'e', 'r'], defs := [Rfc5280.AlgorithmIdentifier, Rfc8494.CompressionAlgorithmIdentifier],
     apart := [(0, 1, [48, 3, 6, 1, 43]),
       (1, 0, [160, 3, 2, 1, 1])] },
   { name := ['C', 'o', 'n', 't', 'e', 'n', 't', 'C', 'o', 'l', 'l', 'e', 'c', 't', 'i', 'o', 'n'], defs := [Rfc4073.ContentCollection] },
   { name := ['C', 'o', 'n', 't', 'e', 'n', 't', 'D', 'e', 'c', 'r', 'y', 'p', 't', 'K', 'e', 'y', 'I', 'D'], defs := [Rfc6032.ContentDecryptKeyID, Rfc7906.ContentDecryptKeyID] },
   { name := ['C', 'o', 'n', 't', 'e', 'n', 't', 'E', 'n', 'c', 'r', 'y', 'p', 't', 'i', 'o', 'n', 'A', 'l', 'g', 'o', 'r', 'i', 't', 'h', 'm', 'I', 'd', 'e', 'n', 't', 'i', 'f', 'i', 'e', 'r'], defs := [Rfc2459.AlgorithmIdentifier, Rfc3280.AlgorithmIdentifier, Rfc5280.AlgorithmIdentifier] },
   { name := ['C', 'o', 'n', 't', 'e', 'n', 't', 'H', 'i', 'n', 't', 's'], defs := [Rfc2634.ContentHints] },
   { name := ['C', 'o', 'n', 't', 'e', 'n', 't', 'I', 'd', 'e', 'n', 't', 'i', 'f', 'i', 'e', 'r'], defs := [Rfc2634.ContentIdentifier] },
   { name := ['C', 'o', 'n', 't', 'e', 'n', 't', 'I', 'n', 'f', 'o'], defs := [Rfc2315.ContentInfo, Rfc5652.ContentInfo, Rfc3852.ContentInfo],
     apart := [(0, 1, [48, 3, 6, 1, 43]),
       (0, 2, [48, 3, 6, 1, 43])] },
   { name := ['C', 'o', 'n', 't', 'e', 'n', 't', 'R', 'e', 'f', 'e', 'r', 'e', 'n', 'c', 'e'], defs := [Rfc2634.ContentReference] },
   { name := ['C', 'o', 'n', 't', 'e', 'n', 't', 'T', 'i', 'm', 'e', 's', 't', 'a', 'm', 'p'], defs := [Rfc5652.ContentInfo] },
   { name := ['C', 'o', 'n', 't', 'e', 'n', 't', 'T', 'y', 'p', 'e'], defs := [Rfc2315.ContentType, Rfc5652.ContentType, Rfc3852.ContentType] },
   { name := ['C', 'o', 'n', 't', 'e', 'n', 't', 'T', 'y', 'p', 'e', 'C', 'o', 'n', 's', 't', 'r', 'a', 'i', 'n', 't'], defs := [Rfc6010.ContentTypeConstraint] },
   { name := ['C', 'o', 'n', 't', 'e', 'n', 't', 'T', 'y', 'p', 'e', 'G', 'e', 'n', 'e', 'r', 'a', 't', 'i', 'o', 'n'], defs := [Rfc6010.ContentTypeGeneration] },
   { name := ['C', 'o', 'n', 't', 'e', 'n', 't', 'T', 'y', 'p', 'e', '_', 'S', 'h', 'o', 'r', 't', 'F', 'o', 'r', 'm'], defs := [Rfc8494.ContentType_ShortForm] },
   { name := ['C', 'o', 'n', 't', 'e', 'n', 't', 'W', 'i', 't', 'h', 'A', 't', 't', 'r', 'i', 'b', 'u', 't', 'e', 's'], defs := [Rfc4073.ContentWithAttributes] },
   { name := ['C', 'o', 'n', 't', 'r', 'o', 'l'], defs := [Rfc2251.Control] },
   { name := ['C', 'o', 'n', 't', 'r', 'o', 'l', 's'], defs := [Rfc2251.Controls, Rfc2511.Controls, Rfc4211.Controls],
     apart := [(0, 1, [48, 4, 48, 2, 4, 0]),
       (0, 2, [48, 4, 48, 2, 4, 0]),
       (1, 0, [48, 7, 48, 5, 6, 1, 42, 48, 0]),
       (2, 0, [48, 7, 48, 5, 6, 1, 42, 48, 0])] }]

def block7 : List Group :=
  [{ name := ['C', 'o', 'n', 't', 'r', 'o', 'l', 's', 'P', 'r', 'o', 'c', 'e', 's', 's', 'e', 'd'], defs := [Rfc6402.ControlsProcessed] },
   { name := ['C', 'o', 'u', 'n', 't', 'e', 'r'], defs := [Rfc1155.Counter] },
   { name := ['C', 'o', 'u', 'n', 't', 'e', 'r', '3', '2'], defs := [Rfc1902.Counter32] },
   { name := ['C', 'o', 'u', 'n', 't', 'e', 'r', '6', '4'], defs := [Rfc1902.Counter64] },
   { name := ['C', 'o', 'u', 'n', 't', 'e', 'r', 's', 'i', 'g', 'n', 'a', 't', 'u', 'r', 'e'], defs := [Rfc5652.SignerInfo, Rfc3852.SignerInfo] },
   { name := ['C', 'o', 'u', 'n', 't', 'r', 'y', 'N', 'a', 'm', 'e'], defs := [Rfc2459.CountryName, Rfc3280.CountryName, Rfc5280.CountryName] },
   { name := ['C', 'o', 'u', 'n', 't', 'r', 'y', 'O', 'f', 'C', 'i', 't', 'i', 'z', 'e', 'n', 's', 'h', 'i', 'p'], defs := [Rfc3739.CountryOfCitizenship] },
   { name := ['C', 'o', 'u', 'n', 't', 'r', 'y', 'O', 'f', 'R', 'e', 's', 'i', 'd', 'e', 'n', 'c', 'e'], defs := [Rfc3739.CountryOfResidence] },
   { name := ['C', 'r', 'l', 'I', 'D'], defs := [Rfc6960.CrlID] },
   { name := ['C', 'r', 'l', 'I', 'd', 'e', 'n', 't', 'i', 'f', 'i', 'e', 'r'], defs := [Rfc5126.CrlIdentifier] },
   { name := ['C', 'r', 'l', 'O', 'c', 's', 'p', 'R', 'e', 'f'], defs := [Rfc5126.CrlOcspRef] },
   { name := ['C', 'r', 'l', 'V', 'a', 'l', 'i', 'd', 'a', 't', 'e', 'd', 'I', 'D'], defs := [Rfc5126.CrlValidatedID] },
   { name := ['C', 's', 'r', 'A', 't', 't', 'r', 's'], defs := [Rfc7030.CsrAttrs] },
   { name := ['C', 'u', 'r', 'r', 'e', 'n', 't', 'F', 'W', 'C', 'o', 'n', 'f', 'i', 'g'], defs := [Rfc4108.CurrentFWConfig] },
   { name := ['C', 'u', 'r', 'v', 'e'], defs := [Rfc3279.Curve] },
   { name := ['C', 'u', 'r', 'v', 'e', 'P', 'r', 'i', 'v', 'a', 't', 'e', 'K', 'e', 'y'], defs := [Rfc8410.CurvePrivateKey] },
   { name := ['D', 'E', 'S', '_', 'I', 'V'], defs := [Rfc8018.DES_IV] },
   { name := ['D', 'H', 'B', 'M', 'P', 'a', 'r', 'a', 'm', 'e', 't', 'e', 'r'], defs := [Rfc4210.DHBMParameter] },
   { name := ['D', 'H', 'D', 'o', 'm', 'a', 'i', 'n', 'P', 'a', 'r', 'a', 'm', 'e', 't', 'e', 'r', 's'], defs := [Rfc3279.DomainParameters] },
   { name := ['D', 'H', 'P', 'u', 'b', 'l', 'i', 'c', 'K', 'e', 'y'], defs := [Rfc3279.DHPublicKey] },
   { name := ['D', 'S', 'A', 'K', 'e', 'y', 'C', 'a', 'p', 'a', 'b', 'i', 'l', 'i', 't', 'i', 'e', 's'], defs := [Rfc6664.DSAKeyCapabilities] },
   { name := ['D', 'S', 'A', 'K', 'e', 'y', 'S', 'i', 'z', 'e'], defs := [Rfc6664.DSAKeySize] },
   { name := ['D', 'S', 'A', 'P', 'r', 'i', 'v', 'a', 't', 'e', 'K', 'e', 'y'], defs := [Rfc2459.DSAPrivateKey] },
   { name := ['D', 'S', 'A', 'P', 'u', 'b', 'l', 'i', 'c', 'K', 'e', 'y'], defs := [Rfc3279.DSAPublicKey] },
   { name := ['D', 'S', 'A', '_', 'S', 'i', 'g', '_', 'V', 'a', 'l', 'u', 'e'], defs := [Rfc3279.Dss_Sig_Value] },
   { name := ['D', 'S', 'S', '_', 'P', 'a', 'r', 'm', 's'], defs := [Rfc3279.Dss_Parms] },
   { name := ['D', 'a', 't', 'a'], defs := [Rfc2315.Data] },
   { name := ['D', 'a', 't', 'a', 'E', 'n', 'c', 'a', 'p', 's', 'u', 'l', 'a', 't', 'i', 'o', 'n', 'M', 'e', 'c', 'h', 'a', 'n', 'i', 's', 'm'], defs := [Rfc5280.AlgorithmIdentifier] },
   { name := ['D', 'a', 't', 'e'], defs := [Rfc5275.Date] },
   { name := ['D', 'a', 't', 'e', 'O', 'f', 'B', 'i', 'r', 't', 'h'], defs := [Rfc3739.DateOfBirth] },
   { name := ['D', 'e', 'c', 'r', 'y', 'p', 't', 'K', 'e', 'y', 'I', 'd', 'e', 'n', 't', 'i', 'f', 'i', 'e', 'r'], defs := [Rfc4108.DecryptKeyIdentifier] },
   { name := ['D', 'e', 'c', 'r', 'y', 'p', 't', 'e', 'd', 'P', 'O', 'P'], defs := [Rfc6402.DecryptedPOP] }]

def block8 : List Group :=
  [{ name := ['D', 'e', 'l', 'R', 'e', 'q', 'u', 'e', 's', 't'], defs := [Rfc2251.DelRequest] },
   { name := ['D', 'e', 'l', 'R', 'e', 's', 'p', 'o', 'n', 's', 'e'], defs := [Rfc2251.DelResponse] },
   { name := ['D', 'e', 'l', 'e', 't', 'e', 'G', 'L'], defs := [Rfc5280.GeneralName] },
   { name := ['D', 'e', 'l', 't', 'a', 'T', 'i', 'm', 'e'], defs := [Rfc3125.DeltaTime] },
   { name := ['D', 'h', 'S', 'i', 'g', 'S', 't', 'a', 't', 'i', 'c'], defs := [Rfc6955.DhSigStatic] },
   { name := ['D', 'i', 'g', 'e', 's', 't'], defs := [Rfc2315.Digest, Rfc3852.Digest, Rfc5652.Digest] },
   { name := ['D', 'i', 'g', 'e', 's', 't', 'A', 'l', 'g', 'o', 'r', 'i', 't', 'h', 'm'], defs := [Rfc5280.AlgorithmIdentifier] },
   { name := ['D', 'i', 'g', 'e', 's', 't', 'A', 'l', 'g', 'o', 'r', 'i', 't', 'h', 'm', 'I', 'd', 'e', 'n', 't', 'i', 'f', 'i', 'e', 'r'], defs := [Rfc2459.AlgorithmIdentifier, Rfc3280.AlgorithmIdentifier, Rfc5280.AlgorithmIdentifier] },
   { name := ['D', 'i', 'g', 'e', 's', 't', 'A', 'l', 'g', 'o', 'r', 'i', 't', 'h', 'm', 'I', 'd', 'e', 'n', 't', 'i', 'f', 'i', 'e', 'r', 's'], defs := [Rfc2315.DigestAlgorithmIdentifiers, Rfc3852.DigestAlgorithmIdentifiers, Rfc5652.DigestAlgorithmIdentifiers] },
   { name := ['D', 'i', 'g', 'e', 's', 't', 'E', 'n', 'c', 'r', 'y', 'p', 't', 'i', 'o', 'n', 'A', 'l', 'g', 'o', 'r', 'i', 't', 'h', 'm', 'I', 'd', 'e', 'n', 't', 'i', 'f', 'i', 'e', 'r'], defs := [Rfc2459.AlgorithmIdentifier] },
   { name := ['D', 'i', 'g', 'e', 's', 't', 'I', 'n', 'f', 'o'], defs := [Rfc2315.DigestInfo, Rfc8017.DigestInfo] },
   { name := ['D', 'i', 'g', 'e', 's', 't', 'e', 'd', 'D', 'a', 't', 'a'], defs := [Rfc2315.DigestedData, Rfc3852.DigestedData, Rfc5652.DigestedData],
     apart := [(0, 1, [48, 19, 2, 1, 255, 48, 3, 6, 1, 42, 48, 7, 6, 1, 42, 160, 2, 5, 0, 4, 0]),
       (0, 2, [48, 19, 2, 1, 255, 48, 3, 6, 1, 42, 48, 7, 6, 1, 42, 160, 2, 5, 0, 4, 0])],
     other := [(1, 0), (2, 0)] },
   { name := ['D', 'i', 'r', 'e', 'c', 't', 'o', 'r', 'y', 'S', 't', 'r', 'i', 'n', 'g'], defs := [Rfc2459.DirectoryString, Rfc2985.DirectoryString, Rfc5280.DirectoryString, Rfc3280.DirectoryString, Rfc5917.DirectoryString, Rfc7894.DirectoryString],
     apart := [(0, 1, [22, 1, 48]),
       (0, 2, [22, 1, 48]),
       (0, 4, [22, 1, 48]),
       (0, 5, [22, 1, 48]),
       (1, 4, [19, 1, 64]),
       (2, 1, [20, 130, 1, 1, 64, 64, 64, 64, 64, 64, 64, 64, 64, 64, 64, 64, 64, 64, 64, 64, 64, 64, 64, 64, 64, 64, 64, 64, 64, 64, 64, 64, 64, 64, 64, 64, 64, 64, 64, 64, 64, 64, 64, 64, 64, 64, 64, 64, 64, 64, 64, 64, 64, 64, 64, 64, 64, 64, 64, 64, 64, 64, 64, 64, 64, 64, 64, 64, 64, 64, 64, 64, 64, 64, 64, 64, 64, 64, 64, 64, 64, 64, 64, 64, 64, 64, 64, 64, 64, 64, 64, 64, 64, 64, 64, 64, 64, 64, 64, 64, 64, 64, 64, 64, 64, 64, 64, 64, 64, 64, 64, 64, 64, 64, 64, 64, 64, 64, 64, 64, 64, 64, 64, 64, 64, 64, 64, 64, 64, 64, 64, 64, 64, 64, 64, 64, 64, 64, 64, 64, 64, 64, 64, 64, 64, 64, 64, 64, 64, 64, 64, 64, 64, 64, 64, 64, 64, 64, 64, 64, 64, 64, 64, 64, 64, 64, 64, 64, 64, 64, 64, 64, 64, 64, 64, 64, 64, 64, 64, 64, 64, 64, 64, 64, 64, 64, 64, 64, 64, 64, 64, 64, 64, 64, 64, 64, 64, 64, 64, 64, 64, 64, 64, 64, 64, 64, 64, 64, 64, 64, 64, 64, 64, 64, 64, 64, 64, 64, 64, 64, 64, 64, 64, 64, 64, 64, 64, 64, 64, 64, 64, 64, 64, 64, 64, 64, 64, 64, 64, 64, 64, 64, 64, 64, 64, 64, 64, 64, 64, 64, 64, 64, 64, 64, 64, 64, 64, 64, 64, 64, 64]),
       (2, 4, [19, 1, 64]),
       (2, 5, [20, 130, 1, 1, 64, 64, 64, 64, 64, 64, 64, 64, 64, 64, 64, 64, 64, 64, 64, 64, 64, 64, 64, 64, 64, 64, 64, 64, 64, 64, 64, 64, 64, 64, 64, 64, 64, 64, 64, 64, 64, 64, 64, 64, 64, 64, 64, 64, 64, 64, 64, 64, 64, 64, 64, 64, 64, 64, 64, 64, 64, 64, 64, 64, 64, 64, 64, 64, 64, 64, 64, 64, 64, 64, 64, 64, 64, 64, 64, 64, 64, 64, 64, 64, 64, 64, 64, 64, 64, 64, 64, 64, 64, 64, 64, 64, 64, 64, 64, 64, 64, 64, 64, 64, 64, 64, 64, 64, 64, 64, 64, 64, 64, 64, 64, 64, 64, 64, 64, 64, 64, 64, 64, 64, 64, 64, 64, 64, 64, 64, 64, 64, 64, 64, 64, 64, 64, 64, 64, 64, 64, 64, 64, 64, 64, 64, 64, 64, 64, 64, 64, 64, 64, 64, 64, 64, 64, 64, 64, 64, 64, 64, 64, 64, 64, 64, 64, 64, 64, 64, 64, 64, 64, 64, 64, 64, 64, 64, 64, 64, 64, 64, 64, 64, 64, 64, 64, 64, 64, 64, 64, 64, 64, 64, 64, 64, 64, 64, 64, 64, 64, 64, 64, 64, 64, 64, 64, 64, 64, 64, 64, 64, 64, 64, 64, 64, 64, 64, 64, 64, 64, 64, 64, 64, 64, 64, 64, 64, 64, 64, 64, 64, 64, 64, 64, 64, 64, 64, 64, 64, 64, 64, 64, 64, 64, 64, 64, 64, 64, 64, 64, 64, 64, 64, 64, 64, 64, 64, 64, 64, 64]),
       (3, 0, [5, 0]),
       (3, 1, [5, 0]),
       (3, 2, [5, 0]),
       (3, 4, [5, 0]),
       (3, 5, [5, 0]),
       (5, 4, [19, 1, 64])] },
   { name := ['D', 'i', 's', 'p', 'l', 'a', 'y', 'T', 'e', 'x', 't'], defs := [Rfc2459.DisplayText, Rfc3280.DisplayText, Rfc5126.DisplayText, Rfc5280.DisplayText],
     apart := [(1, 0, [22, 1, 65]),
       (1, 2, [22, 1, 65]),
       (3, 0, [22, 1, 65]),
       (3, 2, [22, 1, 65])] },
   { name := ['D', 'i', 's', 't', 'i', 'n', 'g', 'u', 'i', 's', 'h', 'e', 'd', 'N', 'a', 'm', 'e'], defs := [Rfc3280.RDNSequence, Rfc5280.RDNSequence] },
   { name := ['D', 'i', 's', 't', 'r', 'i', 'b', 'u', 't', 'i', 'o', 'n', 'P', 'o', 'i', 'n', 't'], defs := [Rfc2459.DistributionPoint, Rfc3280.DistributionPoint, Rfc5280.DistributionPoint],
     apart := [(0, 1, [48, 9, 162, 7, 165, 5, 161, 3, 22, 1, 65]),
       (0, 2, [48, 9, 162, 7, 165, 5, 161, 3, 22, 1, 65]),
       (1, 0, [48, 17, 162, 15, 163, 13, 48, 0, 49, 9, 48, 7, 128, 1, 0, 161, 2, 5, 0]),
       (2, 0, [48, 17, 162, 15, 163, 13, 48, 0, 49, 9, 48, 7, 128, 1, 0, 161, 2, 5, 0])] },
   { name := ['D', 'i', 's', 't', 'r', 'i', 'b', 'u', 't', 'i', 'o', 'n', 'P', 'o', 'i', 'n', 't', 'N', 'a', 'm', 'e'], defs := [Rfc2459.DistributionPointName, Rfc3280.DistributionPointName, Rfc5280.DistributionPointName],
     apart := [(0, 1, [160, 7, 165, 5, 161, 3, 22, 1, 65]),
       (0, 2, [160, 7, 165, 5, 161, 3, 22, 1, 65]),
       (1, 0, [160, 15, 163, 13, 48, 0, 49, 9, 48, 7, 128, 1, 0, 161, 2, 5, 0]),
       (2, 0, [160, 15, 163, 13, 48, 0, 49, 9, 48, 7, 128, 1, 0, 161, 2, 5, 0])] },
   { name := ['D', 'o', 'm', 'a', 'i', 'n', 'C', 'o', 'm', 'p', 'o', 'n', 'e', 'n', 't'], defs := [Rfc3280.DomainComponent, Rfc5280.DomainComponent] },
   { name := ['D', 'o', 'm', 'a', 'i', 'n', 'P', 'a', 'r', 'a', 'm', 'e', 't', 'e', 'r', 's'], defs := [Rfc2459.DomainParameters, Rfc3279.DomainParameters],
     apart := [(1, 0, [48, 9, 2, 1, 6, 2, 1, 255, 2, 1, 255])] },
   { name := ['D', 's', 's', '_', 'P', 'a', 'r', 'm', 's'], defs := [Rfc2459.Dss_Parms, Rfc3279.Dss_Parms] },
   { name := ['D', 's', 's', '_', 'P', 'u', 'b', '_', 'K', 'e', 'y'], defs := [Rfc3370.Dss_Pub_Key] },
   { name := ['D', 's', 's', '_', 'S', 'i', 'g', '_', 'V', 'a', 'l', 'u', 'e'], defs := [Rfc2459.Dss_Sig_Value, Rfc3279.Dss_Sig_Value] },
   { name := ['E', '1', '6', '3', '_', '4', '_', 'a', 'd', 'd', 'r', 'e', 's', 's'], defs := [Rfc2459.E163_4_address] },
   { name := ['E', 'C', 'C', '_', 'C', 'M', 'S', '_', 'S', 'h', 'a', 'r', 'e', 'd', 'I', 'n', 'f', 'o'], defs := [Rfc5753.ECC_CMS_SharedInfo] },
   { name := ['E', 'C', 'D', 'S', 'A', '_', 'S', 'i', 'g', '_', 'V', 'a', 'l', 'u', 'e'], defs := [Rfc3279.ECDSA_Sig_Value] },
   { name := ['E', 'C', 'P', 'V', 'e', 'r'], defs := [Rfc3279.ECPVer] },
   { name := ['E', 'C', 'P', 'a', 'r', 'a', 'm', 'e', 't', 'e', 'r', 's'], defs := [Rfc3279.ECParameters, Rfc5480.ECParameters],
     apart := [(0, 1, [48, 21, 2, 1, 255, 48, 5, 6, 1, 42, 5, 0, 48, 4, 4, 0, 4, 0, 4, 0, 2, 1, 6]),
       (1, 0, [6, 1, 43])] },
   { name := ['E', 'C', 'P', 'o', 'i', 'n', 't'], defs := [Rfc3279.ECPoint] },
   { name := ['E', 'C', 'P', 'r', 'i', 'v', 'a', 't', 'e', 'K', 'e', 'y'], defs := [Rfc5915.ECPrivateKey] },
   { name := ['E', 'C', '_', 'S', 'M', 'i', 'm', 'e', 'C', 'a', 'p', 's'], defs := [Rfc6664.EC_SMimeCaps] },
   { name := ['E', 'D', 'I', 'P', 'a', 'r', 't', 'y', 'N', 'a', 'm', 'e'], defs := [Rfc2459.EDIPartyName, Rfc3280.EDIPartyName, Rfc5280.EDIPartyName],
     apart := [(0, 1, [48, 5, 161, 3, 22, 1, 65]),
       (0, 2, [48, 5, 161, 3, 22, 1, 65])] },
   { name := ['E', 'S', 'C', 'T', 'i', 'm', 'e', 'S', 't', 'a', 'm', 'p', 'T', 'o', 'k', 'e', 'n'], defs := [Rfc5652.ContentInfo] }]

def block9 : List Group :=
  [{ name := ['E', 'S', 'S', 'C', 'e', 'r', 't', 'I', 'D'], defs := [Rfc2634.ESSCertID] },
   { name := ['E', 'S', 'S', 'C', 'e', 'r', 't', 'I', 'D', 'v', '2'], defs := [Rfc5035.ESSCertIDv2] },
   { name := ['E', 'S', 'S', 'P', 'r', 'i', 'v', 'a', 'c', 'y', 'M', 'a', 'r', 'k'], defs := [Rfc2634.ESSPrivacyMark] },
   { name := ['E', 'S', 'S', 'S', 'e', 'c', 'u', 'r', 'i', 't', 'y', 'L', 'a', 'b', 'e', 'l'], defs := [Rfc2634.ESSSecurityLabel] },
   { name := ['E', 'S', 'S', 'V', 'e', 'r', 's', 'i', 'o', 'n'], defs := [Rfc2634.ESSVersion] },
   { name := ['E', 'c', 'p', 'k', 'P', 'a', 'r', 'a', 'm', 'e', 't', 'e', 'r', 's'], defs := [Rfc3279.EcpkParameters] },
   { name := ['E', 'd', 'i', 't', 'i', 'o', 'n', 'I', 'D'], defs := [Rfc7906.EditionID] },
   { name := ['E', 'm', 'a', 'i', 'l', 'A', 'd', 'd', 'r', 'e', 's', 's'], defs := [Rfc5280.EmailAddress, Rfc3280.EmailAddress],
     apart := [(0, 1, [22, 129, 129, 65, 65, 65, 65, 65, 65, 65, 65, 65, 65, 65, 65, 65, 65, 65, 65, 65, 65, 65, 65, 65, 65, 65, 65, 65, 65, 65, 65, 65, 65, 65, 65, 65, 65, 65, 65, 65, 65, 65, 65, 65, 65, 65, 65, 65, 65, 65, 65, 65, 65, 65, 65, 65, 65, 65, 65, 65, 65, 65, 65, 65, 65, 65, 65, 65, 65, 65, 65, 65, 65, 65, 65, 65, 65, 65, 65, 65, 65, 65, 65, 65, 65, 65, 65, 65, 65, 65, 65, 65, 65, 65, 65, 65, 65, 65, 65, 65, 65, 65, 65, 65, 65, 65, 65, 65, 65, 65, 65, 65, 65, 65, 65, 65, 65, 65, 65, 65, 65, 65, 65, 65, 65, 65, 65, 65, 65, 65, 65, 65])] },
   { name := ['E', 'n', 'c', 'K', 'e', 'y', 'W', 'i', 't', 'h', 'I', 'D'], defs := [Rfc4211.EncKeyWithID] },
   { name := ['E', 'n', 'c', 'a', 'p', 's', 'u', 'l', 'a', 't', 'e', 'd', 'C', 'o', 'n', 't', 'e', 'n', 't', 'I', 'n', 'f', 'o'], defs := [Rfc3852.EncapsulatedContentInfo, Rfc5652.EncapsulatedContentInfo] },
   { name := ['E', 'n', 'c', 'o', 'd', 'i', 'n', 'g'], defs := [Rfc6031.Encoding] },
   { name := ['E', 'n', 'c', 'o', 'd', 'i', 'n', 'g', 'P', 'a', 'r', 'a', 'm', 'e', 't', 'e', 'r', 's'], defs := [Rfc8017.EncodingParameters] },
   { name := ['E', 'n', 'c', 'r', 'y', 'p', 't', 'e', 'd', 'C', 'o', 'n', 't', 'e', 'n', 't'], defs := [Rfc2315.EncryptedContent, Rfc3852.EncryptedContent, Rfc5652.EncryptedContent] },
   { name := ['E', 'n', 'c', 'r', 'y', 'p', 't', 'e', 'd', 'C', 'o', 'n', 't', 'e', 'n', 't', 'I', 'n', 'f', 'o'], defs := [Rfc2315.EncryptedContentInfo, Rfc3852.EncryptedContentInfo, Rfc5652.EncryptedContentInfo] },
   { name := ['E', 'n', 'c', 'r', 'y', 'p', 't', 'e', 'd', 'D', 'a', 't', 'a'], defs := [Rfc2315.EncryptedData, Rfc3852.EncryptedData, Rfc5208.EncryptedData, Rfc5652.EncryptedData, Rfc5958.EncryptedData],
     apart := [(0, 2, [48, 13, 2, 1, 255, 48, 8, 6, 1, 42, 48, 3, 6, 1, 42]),
       (0, 4, [48, 13, 2, 1, 255, 48, 8, 6, 1, 42, 48, 3, 6, 1, 42]),
       (1, 0, [48, 22, 2, 1, 255, 48, 8, 6, 1, 42, 48, 3, 6, 1, 42, 161, 7, 48, 5, 6, 1, 42, 49, 0]),
       (1, 2, [48, 13, 2, 1, 255, 48, 8, 6, 1, 42, 48, 3, 6, 1, 42]),
       (1, 4, [48, 13, 2, 1, 255, 48, 8, 6, 1, 42, 48, 3, 6, 1, 42]),
       (2, 0, [4, 0]),
       (2, 1, [4, 0]),
       (2, 3, [4, 0]),
       (3, 0, [48, 22, 2, 1, 255, 48, 8, 6, 1, 42, 48, 3, 6, 1, 42, 161, 7, 48, 5, 6, 1, 42, 49, 0]),
       (3, 2, [48, 13, 2, 1, 255, 48, 8, 6, 1, 42, 48, 3, 6, 1, 42]),
       (3, 4, [48, 13, 2, 1, 255, 48, 8, 6, 1, 42, 48, 3, 6, 1, 42]),
       (4, 0, [4, 0]),
       (4, 1, [4, 0]),
       (4, 3, [4, 0])] },
   { name := ['E', 'n', 'c', 'r', 'y', 'p', 't', 'e', 'd', 'D', 'i', 'g', 'e', 's', 't'], defs := [Rfc2315.EncryptedDigest] },
   { name := ['E', 'n', 'c', 'r', 'y', 'p', 't', 'e', 'd', 'K', 'e', 'y'], defs := [Rfc2315.EncryptedKey, Rfc2511.EncryptedKey, Rfc3852.EncryptedKey, Rfc4211.EncryptedKey, Rfc5652.EncryptedKey],
     apart := [(0, 1, [4, 0]),
       (0, 3, [4, 0]),
       (1, 0, [48, 3, 3, 1, 0]),
       (1, 2, [48, 3, 3, 1, 0]),
       (1, 4, [48, 3, 3, 1, 0]),
       (2, 1, [4, 0]),
       (2, 3, [4, 0]),
       (3, 0, [48, 3, 3, 1, 0]),
       (3, 1, [160, 22, 2, 1, 255, 49, 7, 164, 5, 6, 1, 42, 5, 0, 48, 8, 6, 1, 42, 48, 3, 6, 1, 42]),
       (3, 2, [48, 3, 3, 1, 0]),
       (3, 4, [48, 3, 3, 1, 0]),
       (4, 1, [4, 0]),
       (4, 3, [4, 0])] },
   { name := ['E', 'n', 'c', 'r', 'y', 'p', 't', 'e', 'd', 'K', 'e', 'y', 'P', 'a', 'c', 'k', 'a', 'g', 'e'], defs := [Rfc6032.EncryptedKeyPackage] },
   { name := ['E', 'n', 'c', 'r', 'y', 'p', 't', 'e', 'd', 'P', 'E', 'P', 'S', 'I'], defs := [Rfc4683.EncryptedPEPSI] },
   { name := ['E', 'n', 'c', 'r', 'y', 'p', 't', 'e', 'd', 'P', 'O', 'P'], defs := [Rfc6402.EncryptedPOP] },
   { name := ['E', 'n', 'c', 'r', 'y', 'p', 't', 'e', 'd', 'P', 'r', 'i', 'v', 'a', 't', 'e', 'K', 'e', 'y', 'I', 'n', 'f', 'o'], defs := [Rfc5958.EncryptedPrivateKeyInfo, Rfc5208.EncryptedPrivateKeyInfo] },
   { name := ['E', 'n', 'c', 'r', 'y', 'p', 't', 'e', 'd', 'V', 'a', 'l', 'u', 'e'], defs := [Rfc2511.EncryptedValue, Rfc4211.EncryptedValue] },
   { name := ['E', 'n', 't', 'i', 't', 'y', 'I', 'd', 'e', 'n', 't', 'i', 'f', 'i', 'e', 'r'], defs := [Rfc2634.EntityIdentifier] },
   { name := ['E', 'n', 'u', 'R', 'e', 'v', 'R', 'e', 'q'], defs := [Rfc3125.EnuRevReq] },
   { name := ['E', 'n', 'u', 'm', 'e', 'r', 'a', 't', 'e', 'd', 'E', 'r', 'r', 'o', 'r', 'C', 'o', 'd', 'e'], defs := [Rfc7191.EnumeratedErrorCode] },
   { name := ['E', 'n', 'u', 'm', 'e', 'r', 'a', 't', 'e', 'd', 'T', 'a', 'g'], defs := [Rfc7906.EnumeratedTag] },
   { name := ['E', 'n', 'v', 'e', 'l', 'o', 'p', 'e', 'd', 'D', 'a', 't', 'a'], defs := [Rfc2315.EnvelopedData, Rfc3852.EnvelopedData, Rfc5652.EnvelopedData],
     apart := [(1, 0, [48, 22, 2, 1, 255, 49, 7, 164, 5, 6, 1, 42, 48, 0, 48, 8, 6, 1, 42, 48, 3, 6, 1, 42]),
       (2, 0, [48, 22, 2, 1, 255, 49, 7, 164, 5, 6, 1, 42, 48, 0, 48, 8, 6, 1, 42, 48, 3, 6, 1, 42])] },
   { name := ['E', 'q', 'u', 'i', 'v', 'a', 'l', 'e', 'n', 't', 'L', 'a', 'b', 'e', 'l', 's'], defs := [Rfc2634.EquivalentLabels] },
   { name := ['E', 'r', 'r', 'o', 'r', 'C', 'o', 'd', 'e', 'C', 'h', 'o', 'i', 'c', 'e'], defs := [Rfc7191.ErrorCodeChoice] },
   { name := ['E', 'r', 'r', 'o', 'r', 'I', 'n', 'd', 'e', 'x'], defs := [Rfc1157.ErrorIndex] },
   { name := ['E', 'r', 'r', 'o', 'r', 'M', 's', 'g', 'C', 'o', 'n', 't', 'e', 'n', 't'], defs := [Rfc4210.ErrorMsgContent] },
   { name := ['E', 'r', 'r', 'o', 'r', 'S', 't', 'a', 't', 'u', 's'], defs := [Rfc1157.ErrorStatus] }]

def block10 : List Group :=
  [{ name := ['E', 'x', 't', 'K', 'e', 'y', 'U', 's', 'a', 'g', 'e', 'S', 'y', 'n', 't', 'a', 'x'], defs := [Rfc2459.ExtKeyUsageSyntax, Rfc3280.ExtKeyUsageSyntax, Rfc5280.ExtKeyUsageSyntax] },
   { name := ['E', 'x', 't', 'e', 'n', 'd', 'e', 'd', 'C', 'e', 'r', 't', 'i', 'f', 'i', 'c', 'a', 't', 'e'], defs := [Rfc2315.ExtendedCertificate, Rfc3852.ExtendedCertificate, Rfc5652.ExtendedCertificate] },
   { name := ['E', 'x', 't', 'e', 'n', 'd', 'e', 'd', 'C', 'e', 'r', 't', 'i', 'f', 'i', 'c', 'a', 't', 'e', 'I', 'n', 'f', 'o'], defs := [Rfc2315.ExtendedCertificateInfo, Rfc3852.ExtendedCertificateInfo, Rfc5652.ExtendedCertificateInfo] },
   { name := ['E', 'x', 't', 'e', 'n', 'd', 'e', 'd', 'C', 'e', 'r', 't', 'i', 'f', 'i', 'c', 'a', 't', 'e', 'O', 'r', 'C', 'e', 'r', 't', 'i', 'f', 'i', 'c', 'a', 't', 'e'], defs := [Rfc2315.ExtendedCertificateOrCertificate, Rfc3852.ExtendedCertificateOrCertificate, Rfc5652.ExtendedCertificateOrCertificate] },
   { name := ['E', 'x', 't', 'e', 'n', 'd', 'e', 'd', 'C', 'e', 'r', 't', 'i', 'f', 'i', 'c', 'a', 't', 'e', 's', 'A', 'n', 'd', 'C', 'e', 'r', 't', 'i', 'f', 'i', 'c', 'a', 't', 'e', 's'], defs := [Rfc2315.ExtendedCertificatesAndCertificates] },
   { name := ['E', 'x', 't', 'e', 'n', 'd', 'e', 'd', 'N', 'e', 't', 'w', 'o', 'r', 'k', 'A', 'd', 'd', 'r', 'e', 's', 's'], defs := [Rfc2459.ExtendedNetworkAddress, Rfc3280.ExtendedNetworkAddress, Rfc5280.ExtendedNetworkAddress],
     apart := [(0, 1, [160, 2, 48, 0]),
       (0, 2, [160, 2, 48, 0]),
       (1, 0, [48, 3, 128, 1, 48]),
       (2, 0, [48, 3, 128, 1, 48])] },
   { name := ['E', 'x', 't', 'e', 'n', 'd', 'e', 'd', 'R', 'e', 'q', 'u', 'e', 's', 't'], defs := [Rfc2251.ExtendedRequest] },
   { name := ['E', 'x', 't', 'e', 'n', 'd', 'e', 'd', 'R', 'e', 's', 'p', 'o', 'n', 's', 'e'], defs := [Rfc2251.ExtendedResponse] },
   { name := ['E', 'x', 't', 'e', 'n', 's', 'i', 'o', 'n'], defs := [Rfc2459.Extension, Rfc3280.Extension, Rfc5280.Extension] },
   { name := ['E', 'x', 't', 'e', 'n', 's', 'i', 'o', 'n', 'A', 't', 't', 'r', 'i', 'b', 'u', 't', 'e'], defs := [Rfc2459.ExtensionAttribute, Rfc3280.ExtensionAttribute, Rfc5280.ExtensionAttribute],
     apart := [(1, 0, [48, 7, 128, 1, 6, 161, 2, 5, 0]),
       (2, 0, [48, 7, 128, 1, 6, 161, 2, 5, 0])] },
   { name := ['E', 'x', 't', 'e', 'n', 's', 'i', 'o', 'n', 'A', 't', 't', 'r', 'i', 'b', 'u', 't', 'e', 's'], defs := [Rfc2459.ExtensionAttributes, Rfc3280.ExtensionAttributes, Rfc5280.ExtensionAttributes],
     apart := [(1, 0, [49, 9, 48, 7, 128, 1, 7, 161, 2, 5, 0]),
       (2, 0, [49, 9, 48, 7, 128, 1, 7, 161, 2, 5, 0])] },
   { name := ['E', 'x', 't', 'e', 'n', 's', 'i', 'o', 'n', 'O', 'R', 'A', 'd', 'd', 'r', 'e', 's', 's', 'C', 'o', 'm', 'p', 'o', 'n', 'e', 'n', 't', 's'], defs := [Rfc2459.PDSParameter, Rfc3280.PDSParameter, Rfc5280.PDSParameter] },
   { name := ['E', 'x', 't', 'e', 'n', 's', 'i', 'o', 'n', 'P', 'h', 'y', 's', 'i', 'c', 'a', 'l', 'D', 'e', 'l', 'i', 'v', 'e', 'r', 'y', 'A', 'd', 'd', 'r', 'e', 's', 's', 'C', 'o', 'm', 'p', 'o', 'n', 'e', 'n', 't', 's'], defs := [Rfc2459.PDSParameter, Rfc3280.PDSParameter, Rfc5280.PDSParameter] },
   { name := ['E', 'x', 't', 'e', 'n', 's', 'i', 'o', 'n', 'R', 'e', 'q'], defs := [Rfc6402.ExtensionReq] },
   { name := ['E', 'x', 't', 'e', 'n', 's', 'i', 'o', 'n', 'R', 'e', 'q', 'u', 'e', 's', 't'], defs := [Rfc5280.Extensions] },
   { name := ['E', 'x', 't', 'e', 'n', 's', 'i', 'o', 'n', 's'], defs := [Rfc2459.Extensions, Rfc5280.Extensions, Rfc3280.Extensions] },
   { name := ['F', 'W', 'E', 'r', 'r', 'o', 'r', 'V', 'e', 'r', 's', 'i', 'o', 'n'], defs := [Rfc4108.FWErrorVersion] },
   { name := ['F', 'W', 'R', 'e', 'c', 'e', 'i', 'p', 't', 'V', 'e', 'r', 's', 'i', 'o', 'n'], defs := [Rfc4108.FWReceiptVersion] },
   { name := ['F', 'e', 'a', 't', 'u', 'r', 'e', 's'], defs := [Rfc7633.Features] },
   { name := ['F', 'i', 'e', 'l', 'd', 'E', 'l', 'e', 'm', 'e', 'n', 't'], defs := [Rfc3279.FieldElement] },
   { name := ['F', 'i', 'e', 'l', 'd', 'I', 'D'], defs := [Rfc3279.FieldID] },
   { name := ['F', 'i', 'e', 'l', 'd', 'O', 'f', 'A', 'p', 'p', 'l', 'i', 'c', 'a', 't', 'i', 'o', 'n'], defs := [Rfc5280.DirectoryString] },
   { name := ['F', 'i', 'l', 'e', 'A', 'n', 'd', 'H', 'a', 's', 'h'], defs := [Rfc6486.FileAndHash] },
   { name := ['F', 'i', 'l', 't', 'e', 'r'], defs := [Rfc2251.Filter] },
   { name := ['F', 'i', 'l', 't', 'e', 'r', '2'], defs := [Rfc2251.Filter2] },
   { name := ['F', 'i', 'l', 't', 'e', 'r', '3'], defs := [Rfc2251.Filter3] },
   { name := ['F', 'i', 'r', 'm', 'w', 'a', 'r', 'e', 'P', 'a', 'c', 'k', 'a', 'g', 'e', 'I', 'd', 'e', 'n', 't', 'i', 'f', 'i', 'e', 'r'], defs := [Rfc4108.FirmwarePackageIdentifier] },
   { name := ['F', 'i', 'r', 'm', 'w', 'a', 'r', 'e', 'P', 'a', 'c', 'k', 'a', 'g', 'e', 'I', 'n', 'f', 'o'], defs := [Rfc4108.FirmwarePackageInfo] },
   { name := ['F', 'i', 'r', 'm', 'w', 'a', 'r', 'e', 'P', 'a', 'c', 'k', 'a', 'g', 'e', 'L', 'o', 'a', 'd', 'E', 'r', 'r', 'o', 'r'], defs := [Rfc4108.FirmwarePackageLoadError] },
   { name := ['F', 'i', 'r', 'm', 'w', 'a', 'r', 'e', 'P', 'a', 'c', 'k', 'a', 'g', 'e', 'L', 'o', 'a', 'd', 'E', 'r', 'r', 'o', 'r', 'C', 'o', 'd', 'e'], defs := [Rfc4108.FirmwarePackageLoadErrorCode] },
   { name := ['F', 'i', 'r', 'm', 'w', 'a', 'r', 'e', 'P', 'a', 'c', 'k', 'a', 'g', 'e', 'L', 'o', 'a', 'd', 'R', 'e', 'c', 'e', 'i', 'p', 't'], defs := [Rfc4108.FirmwarePackageLoadReceipt] },
   { name := ['F', 'i', 'r', 'm', 'w', 'a', 'r', 'e', 'P', 'a', 'c', 'k', 'a', 'g', 'e', 'M', 'e', 's', 's', 'a', 'g', 'e', 'D', 'i', 'g', 'e', 's', 't'], defs := [Rfc4108.FirmwarePackageMessageDigest] }]

def block11 : List Group :=
  [{ name := ['F', 'i', 'r', 'm', 'w', 'a', 'r', 'e', 'P', 'k', 'g', 'D', 'a', 't', 'a'], defs := [Rfc4108.FirmwarePkgData] },
   { name := ['F', 'r', 'e', 'e', 'F', 'o', 'r', 'm', 'F', 'i', 'e', 'l', 'd'], defs := [Rfc7906.FreeFormField] },
   { name := ['F', 'r', 'e', 's', 'h', 'e', 's', 't', 'C', 'R', 'L'], defs := [Rfc3280.CRLDistributionPoints, Rfc5280.CRLDistributionPoints] },
   { name := ['F', 'r', 'i', 'e', 'n', 'd', 'l', 'y', 'N', 'a', 'm', 'e'], defs := [Rfc2985.FriendlyName, Rfc6031.FriendlyName, Rfc7292.FriendlyName],
     apart := [(0, 1, [30, 2, 0, 48]),
       (1, 0, [48, 2, 12, 0]),
       (1, 2, [48, 2, 12, 0]),
       (2, 1, [30, 2, 0, 48])] },
   { name := ['G', 'C', 'M', 'P', 'a', 'r', 'a', 'm', 'e', 't', 'e', 'r', 's'], defs := [Rfc5084.GCMParameters] },
   { name := ['G', 'L', 'A', 'Q', 'u', 'e', 'r', 'y', 'R', 'e', 'q', 'u', 'e', 's', 't'], defs := [Rfc5275.GLAQueryRequest] },
   { name := ['G', 'L', 'A', 'Q', 'u', 'e', 'r', 'y', 'R', 'e', 's', 'p', 'o', 'n', 's', 'e'], defs := [Rfc5275.GLAQueryResponse] },
   { name := ['G', 'L', 'A', 'd', 'd', 'M', 'e', 'm', 'b', 'e', 'r'], defs := [Rfc5275.GLAddMember] },
   { name := ['G', 'L', 'A', 'd', 'm', 'i', 'n', 'i', 's', 't', 'r', 'a', 't', 'i', 'o', 'n'], defs := [Rfc5275.GLAdministration] },
   { name := ['G', 'L', 'D', 'e', 'l', 'e', 't', 'e', 'M', 'e', 'm', 'b', 'e', 'r'], defs := [Rfc5275.GLDeleteMember] },
   { name := ['G', 'L', 'I', 'n', 'f', 'o'], defs := [Rfc5275.GLInfo] },
   { name := ['G', 'L', 'K', 'C', 'o', 'm', 'p', 'r', 'o', 'm', 'i', 's', 'e'], defs := [Rfc5280.GeneralName] },
   { name := ['G', 'L', 'K', 'R', 'e', 'f', 'r', 'e', 's', 'h'], defs := [Rfc5275.GLKRefresh] },
   { name := ['G', 'L', 'K', 'e', 'y'], defs := [Rfc5275.GLKey] },
   { name := ['G', 'L', 'K', 'e', 'y', 'A', 't', 't', 'r', 'i', 'b', 'u', 't', 'e', 's'], defs := [Rfc5275.GLKeyAttributes] },
   { name := ['G', 'L', 'M', 'a', 'n', 'a', 'g', 'e', 'C', 'e', 'r', 't'], defs := [Rfc5275.GLManageCert] },
   { name := ['G', 'L', 'M', 'e', 'm', 'b', 'e', 'r'], defs := [Rfc5275.GLMember] },
   { name := ['G', 'L', 'N', 'e', 'w', 'K', 'e', 'y', 'A', 't', 't', 'r', 'i', 'b', 'u', 't', 'e', 's'], defs := [Rfc5275.GLNewKeyAttributes] },
   { name := ['G', 'L', 'O', 'w', 'n', 'e', 'r', 'A', 'd', 'm', 'i', 'n', 'i', 's', 't', 'r', 'a', 't', 'i', 'o', 'n'], defs := [Rfc5275.GLOwnerAdministration] },
   { name := ['G', 'L', 'O', 'w', 'n', 'e', 'r', 'I', 'n', 'f', 'o'], defs := [Rfc5275.GLOwnerInfo] },
   { name := ['G', 'L', 'R', 'e', 'k', 'e', 'y'], defs := [Rfc5275.GLRekey] },
   { name := ['G', 'L', 'U', 's', 'e', 'K', 'E', 'K'], defs := [Rfc5275.GLUseKEK] },
   { name := ['G', 'a', 'u', 'g', 'e'], defs := [Rfc1155.Gauge] },
   { name := ['G', 'a', 'u', 'g', 'e', '3', '2'], defs := [Rfc1902.Gauge32] },
   { name := ['G', 'e', 'n', 'M', 's', 'g', 'C', 'o', 'n', 't', 'e', 'n', 't'], defs := [Rfc4210.GenMsgContent] },
   { name := ['G', 'e', 'n', 'R', 'e', 'p', 'C', 'o', 'n', 't', 'e', 'n', 't'], defs := [Rfc4210.GenRepContent] },
   { name := ['G', 'e', 'n', 'd', 'e', 'r'], defs := [Rfc3739.Gender] },
   { name := ['G', 'e', 'n', 'd', 'e', 'r', 'S', 't', 'r', 'i', 'n', 'g'], defs := [Rfc2985.GenderString] },
   { name := ['G', 'e', 'n', 'e', 'r', 'a', 'l', 'N', 'a', 'm', 'e'], defs := [Rfc2459.GeneralName, Rfc2511.GeneralName, Rfc2560.GeneralName, Rfc5280.GeneralName, Rfc3280.GeneralName],
     apart := [(0, 1, [129, 0]),
       (0, 2, [129, 0]),
       (0, 3, [165, 5, 161, 3, 22, 1, 65]),
       (0, 4, [165, 5, 161, 3, 22, 1, 65]),
       (1, 0, [4, 0]),
       (1, 3, [4, 0]),
       (1, 4, [4, 0]),
       (2, 0, [4, 0]),
       (2, 3, [4, 0]),
       (2, 4, [4, 0]),
       (3, 0, [163, 5, 48, 3, 132, 1, 65]),
       (3, 1, [129, 0]),
       (3, 2, [129, 0]),
       (4, 0, [163, 5, 48, 3, 132, 1, 65]),
       (4, 1, [129, 0]),
       (4, 2, [129, 0])] },
   { name := ['G', 'e', 'n', 'e', 'r', 'a', 'l', 'N', 'a', 'm', 'e', 's'], defs := [Rfc2459.GeneralNames, Rfc5280.GeneralNames, Rfc3280.GeneralNames],
     apart := [(0, 1, [48, 7, 165, 5, 161, 3, 22, 1, 65]),
       (0, 2, [48, 7, 165, 5, 161, 3, 22, 1, 65]),
       (1, 0, [48, 7, 163, 5, 48, 3, 128, 1, 65]),
       (2, 0, [48, 7, 163, 5, 48, 3, 128, 1, 65])] },
   { name := ['G', 'e', 'n', 'e', 'r', 'a', 'l', 'S', 'u', 'b', 't', 'r', 'e', 'e'], defs := [Rfc2459.GeneralSubtree, Rfc3125.GeneralSubtree, Rfc3280.GeneralSubtree, Rfc5280.GeneralSubtree],
     apart := [(0, 1, [48, 5, 129, 0, 129, 1, 0]),
       (0, 2, [48, 7, 165, 5, 161, 3, 22, 1, 65]),
       (0, 3, [48, 7, 165, 5, 161, 3, 22, 1, 65]),
       (1, 0, [48, 7, 134, 0, 161, 3, 2, 1, 0]),
       (1, 2, [48, 7, 134, 0, 161, 3, 2, 1, 0]),
       (1, 3, [48, 7, 134, 0, 161, 3, 2, 1, 0]),
       (2, 0, [48, 15, 163, 13, 48, 0, 49, 9, 48, 7, 128, 1, 0, 161, 2, 5, 0]),
       (2, 1, [48, 5, 129, 0, 129, 1, 0]),
       (3, 0, [48, 15, 163, 13, 48, 0, 49, 9, 48, 7, 128, 1, 0, 161, 2, 5, 0]),
       (3, 1, [48, 5, 129, 0, 129, 1, 0])] },
   { name := ['G', 'e', 'n', 'e', 'r', 'a', 'l', 'S', 'u', 'b', 't', 'r', 'e', 'e', 's'], defs := [Rfc2459.GeneralSubtrees, Rfc3125.GeneralSubtrees, Rfc3280.GeneralSubtrees, Rfc5280.GeneralSubtrees],
     apart := [(0, 1, [48, 7, 48, 5, 129, 0, 129, 1, 0]),
       (0, 2, [48, 9, 48, 7, 165, 5, 161, 3, 22, 1, 65]),
       (0, 3, [48, 9, 48, 7, 165, 5, 161, 3, 22, 1, 65]),
       (1, 0, [48, 9, 48, 7, 135, 0, 161, 3, 2, 1, 0]),
       (1, 2, [48, 9, 48, 7, 135, 0, 161, 3, 2, 1, 0]),
       (1, 3, [48, 9, 48, 7, 135, 0, 161, 3, 2, 1, 0]),
       (2, 0, [48, 17, 48, 15, 163, 13, 48, 0, 49, 9, 48, 7, 128, 1, 0, 161, 2, 5, 0]),
       (2, 1, [48, 7, 48, 5, 129, 0, 129, 1, 0]),
       (3, 0, [48, 17, 48, 15, 163, 13, 48, 0, 49, 9, 48, 7, 128, 1, 0, 161, 2, 5, 0]),
       (3, 1, [48, 7, 48, 5, 129, 0, 129, 1, 0])] }]

def block12 : List Group :=
  [{ name := ['G', 'e', 'n', 'e', 'r', 'i', 'c', 'H', 'y', 'b', 'r', 'i', 'd', 'P', 'a', 'r', 'a', 'm', 'e', 't', 'e', 'r', 's'], defs := [Rfc5990.GenericHybridParameters] },
   { name := ['G', 'e', 't', 'B', 'u', 'l', 'k', 'R', 'e', 'q', 'u', 'e', 's', 't', 'P', 'D', 'U'], defs := [Rfc1905.GetBulkRequestPDU] },
   { name := ['G', 'e', 't', 'C', 'R', 'L'], defs := [Rfc6402.GetCRL] },
   { name := ['G', 'e', 't', 'C', 'e', 'r', 't'], defs := [Rfc6402.GetCert] },
   { name := ['G', 'e', 't', 'N', 'e', 'x', 't', 'R', 'e', 'q', 'u', 'e', 's', 't', 'P', 'D', 'U'], defs := [Rfc1157.GetNextRequestPDU, Rfc1905.GetNextRequestPDU],
     apart := [(0, 1, [161, 11, 2, 1, 255, 2, 1, 255, 2, 1, 255, 48, 0]),
       (1, 0, [161, 18, 2, 1, 255, 2, 1, 255, 2, 1, 0, 48, 7, 48, 5, 6, 1, 42, 128, 0])] },
   { name := ['G', 'e', 't', 'R', 'e', 'q', 'u', 'e', 's', 't', 'P', 'D', 'U'], defs := [Rfc1157.GetRequestPDU, Rfc1905.GetRequestPDU],
     apart := [(0, 1, [160, 11, 2, 1, 255, 2, 1, 255, 2, 1, 255, 48, 0]),
       (1, 0, [160, 18, 2, 1, 255, 2, 1, 255, 2, 1, 0, 48, 7, 48, 5, 6, 1, 42, 128, 0])] },
   { name := ['G', 'e', 't', 'R', 'e', 's', 'p', 'o', 'n', 's', 'e', 'P', 'D', 'U'], defs := [Rfc1157.GetResponsePDU] },
   { name := ['G', 'o', 's', 't', '2', '8', '1', '4', '7', '_', '8', '9', '_', 'B', 'l', 'o', 'b', 'P', 'a', 'r', 'a', 'm', 'e', 't', 'e', 'r', 's'], defs := [Rfc4357.Gost28147_89_BlobParameters] },
   { name := ['G', 'o', 's', 't', '2', '8', '1', '4', '7', '_', '8', '9', '_', 'E', 'n', 'c', 'r', 'y', 'p', 't', 'e', 'd', 'K', 'e', 'y'], defs := [Rfc4357.Gost28147_89_EncryptedKey] },
   { name := ['G', 'o', 's', 't', '2', '8', '1', '4', '7', '_', '8', '9', '_', 'I', 'V'], defs := [Rfc4357.Gost28147_89_IV] },
   { name := ['G', 'o', 's', 't', '2', '8', '1', '4', '7', '_', '8', '9', '_', 'K', 'e', 'y'], defs := [Rfc4357.Gost28147_89_Key] },
   { name := ['G', 'o', 's', 't', '2', '8', '1', '4', '7', '_', '8', '9', '_', 'K', 'e', 'y', 'W', 'r', 'a', 'p', 'P', 'a', 'r', 'a', 'm', 'e', 't', 'e', 'r', 's'], defs := [Rfc4490.Gost28147_89_KeyWrapParameters] },
   { name := ['G', 'o', 's', 't', '2', '8', '1', '4', '7', '_', '8', '9', '_', 'M', 'A', 'C'], defs := [Rfc4357.Gost28147_89_MAC] },
   { name := ['G', 'o', 's', 't', '2', '8', '1', '4', '7', '_', '8', '9', '_', 'P', 'a', 'r', 'a', 'm', 'S', 'e', 't'], defs := [Rfc4357.Gost28147_89_ParamSet] },
   { name := ['G', 'o', 's', 't', '2', '8', '1', '4', '7', '_', '8', '9', '_', 'P', 'a', 'r', 'a', 'm', 'S', 'e', 't', 'P', 'a', 'r', 'a', 'm', 'e', 't', 'e', 'r', 's'], defs := [Rfc4357.Gost28147_89_ParamSetParameters] },
   { name := ['G', 'o', 's', 't', '2', '8', '1', '4', '7', '_', '8', '9', '_', 'P', 'a', 'r', 'a', 'm', 'e', 't', 'e', 'r', 's'], defs := [Rfc4357.Gost28147_89_Parameters] },
   { name := ['G', 'o', 's', 't', '2', '8', '1', '4', '7', '_', '8', '9', '_', 'U', 'Z'], defs := [Rfc4357.Gost28147_89_UZ] },
   { name := ['G', 'o', 's', 't', 'R', '3', '4', '1', '0', '_', '2', '0', '0', '1', '_', 'C', 'e', 'r', 't', 'i', 'f', 'i', 'c', 'a', 't', 'e', 'S', 'i', 'g', 'n', 'a', 't', 'u', 'r', 'e'], defs := [Rfc4357.GostR3410_2001_CertificateSignature] },
   { name := ['G', 'o', 's', 't', 'R', '3', '4', '1', '0', '_', '2', '0', '0', '1', '_', 'P', 'a', 'r', 'a', 'm', 'S', 'e', 't', 'P', 'a', 'r', 'a', 'm', 'e', 't', 'e', 'r', 's'], defs := [Rfc4357.GostR3410_2001_ParamSetParameters] },
   { name := ['G', 'o', 's', 't', 'R', '3', '4', '1', '0', '_', '2', '0', '0', '1', '_', 'P', 'u', 'b', 'l', 'i', 'c', 'K', 'e', 'y'], defs := [Rfc4357.GostR3410_2001_PublicKey] },
   { name := ['G', 'o', 's', 't', 'R', '3', '4', '1', '0', '_', '2', '0', '0', '1', '_', 'P', 'u', 'b', 'l', 'i', 'c', 'K', 'e', 'y', 'P', 'a', 'r', 'a', 'm', 'e', 't', 'e', 'r', 's'], defs := [Rfc4357.GostR3410_2001_PublicKeyParameters] },
   { name := ['G', 'o', 's', 't', 'R', '3', '4', '1', '0', '_', '2', '0', '0', '1', '_', 'S', 'i', 'g', 'n', 'a', 't', 'u', 'r', 'e'], defs := [Rfc4490.GostR3410_2001_Signature] },
   { name := ['G', 'o', 's', 't', 'R', '3', '4', '1', '0', '_', '9', '4', '_', 'C', 'e', 'r', 't', 'i', 'f', 'i', 'c', 'a', 't', 'e', 'S', 'i', 'g', 'n', 'a', 't', 'u', 'r', 'e'], defs := [Rfc4357.GostR3410_94_CertificateSignature] },
   { name := ['G', 'o', 's', 't', 'R', '3', '4', '1', '0', '_', '9', '4', '_', 'P', 'a', 'r', 'a', 'm', 'S', 'e', 't', 'P', 'a', 'r', 'a', 'm', 'e', 't', 'e', 'r', 's'], defs := [Rfc4357.GostR3410_94_ParamSetParameters] },
   { name := ['G', 'o', 's', 't', 'R', '3', '4', '1', '0', '_', '9', '4', '_', 'P', 'a', 'r', 'a', 'm', 'S', 'e', 't', 'P', 'a', 'r', 'a', 'm', 'e', 't', 'e', 'r', 's', '_', 't'], defs := [Rfc4357.GostR3410_94_ParamSetParameters_t] },
   { name := ['G', 'o', 's', 't', 'R', '3', '4', '1', '0', '_', '9', '4', '_', 'P', 'u', 'b', 'l', 'i', 'c', 'K', 'e', 'y'], defs := [Rfc4357.GostR3410_94_PublicKey] },
   { name := ['G', 'o', 's', 't', 'R', '3', '4', '1', '0', '_', '9', '4', '_', 'P', 'u', 'b', 'l', 'i', 'c', 'K', 'e', 'y', 'P', 'a', 'r', 'a', 'm', 'e', 't', 'e', 'r', 's'], defs := [Rfc4357.GostR3410_94_PublicKeyParameters] },
   { name := ['G', 'o', 's', 't', 'R', '3', '4', '1', '0', '_', '9', '4', '_', 'S', 'i', 'g', 'n', 'a', 't', 'u', 'r', 'e'], defs := [Rfc4490.GostR3410_94_Signature] },
   { name := ['G', 'o', 's', 't', 'R', '3', '4', '1', '0', '_', '9', '4', '_', 'V', 'a', 'l', 'i', 'd', 'a', 't', 'i', 'o', 'n', 'B', 'i', 's', 'P', 'a', 'r', 'a', 'm', 'e', 't', 'e', 'r', 's'], defs := [Rfc4357.GostR3410_94_ValidationBisParameters] },
   { name := ['G', 'o', 's', 't', 'R', '3', '4', '1', '0', '_', '9', '4', '_', 'V', 'a', 'l', 'i', 'd', 'a', 't', 'i', 'o', 'n', 'B', 'i', 's', 'P', 'a', 'r', 'a', 'm', 'e', 't', 'e', 'r', 's', '_', 'c'], defs := [Rfc4357.GostR3410_94_ValidationBisParameters_c] },
   { name := ['G', 'o', 's', 't', 'R', '3', '4', '1', '0', '_', '9', '4', '_', 'V', 'a', 'l', 'i', 'd', 'a', 't', 'i', 'o', 'n', 'P', 'a', 'r', 'a', 'm', 'e', 't', 'e', 'r', 's'], defs := [Rfc4357.GostR3410_94_ValidationParameters] },
   { name := ['G', 'o', 's', 't', 'R', '3', '4', '1', '0', '_', '9', '4', '_', 'V', 'a', 'l', 'i', 'd', 'a', 't', 'i', 'o', 'n', 'P', 'a', 'r', 'a', 'm', 'e', 't', 'e', 'r', 's', '_', 'c'], defs := [Rfc4357.GostR3410_94_ValidationParameters_c] }]

def block13 : List Group :=
  [{ name := ['G', 'o', 's', 't', 'R', '3', '4', '1', '0', '_', 'K', 'e', 'y', 'T', 'r', 'a', 'n', 's', 'p', 'o', 'r', 't'], defs := [Rfc4490.GostR3410_KeyTransport] },
   { name := ['G', 'o', 's', 't', 'R', '3', '4', '1', '0', '_', 'T', 'r', 'a', 'n', 's', 'p', 'o', 'r', 't', 'P', 'a', 'r', 'a', 'm', 'e', 't', 'e', 'r', 's'], defs := [Rfc4490.GostR3410_TransportParameters] },
   { name := ['G', 'o', 's', 't', 'R', '3', '4', '1', '1', '_', '9', '4', '_', 'D', 'i', 'g', 'e', 's', 't'], defs := [Rfc4357.GostR3411_94_Digest] },
   { name := ['G', 'o', 's', 't', 'R', '3', '4', '1', '1', '_', '9', '4', '_', 'D', 'i', 'g', 'e', 's', 't', 'P', 'a', 'r', 'a', 'm', 'e', 't', 'e', 'r', 's'], defs := [Rfc4357.GostR3411_94_DigestParameters] },
   { name := ['G', 'o', 's', 't', 'R', '3', '4', '1', '1', '_', '9', '4', '_', 'P', 'a', 'r', 'a', 'm', 'S', 'e', 't', 'P', 'a', 'r', 'a', 'm', 'e', 't', 'e', 'r', 's'], defs := [Rfc4357.GostR3411_94_ParamSetParameters] },
   { name := ['H', 'S', 'S', '_', 'L', 'M', 'S', '_', 'H', 'a', 's', 'h', 'S', 'i', 'g', '_', 'P', 'u', 'b', 'l', 'i', 'c', 'K', 'e', 'y'], defs := [Rfc8708.HSS_LMS_HashSig_PublicKey] },
   { name := ['H', 'a', 'r', 'd', 'w', 'a', 'r', 'e', 'M', 'o', 'd', 'u', 'l', 'e', 'I', 'd', 'e', 'n', 't', 'i', 'f', 'i', 'e', 'r', 'L', 'i', 's', 't'], defs := [Rfc5934.HardwareModuleIdentifierList] },
   { name := ['H', 'a', 'r', 'd', 'w', 'a', 'r', 'e', 'M', 'o', 'd', 'u', 'l', 'e', 'N', 'a', 'm', 'e'], defs := [Rfc4108.HardwareModuleName] },
   { name := ['H', 'a', 'r', 'd', 'w', 'a', 'r', 'e', 'M', 'o', 'd', 'u', 'l', 'e', 's'], defs := [Rfc4108.HardwareModules, Rfc5934.HardwareModules] },
   { name := ['H', 'a', 'r', 'd', 'w', 'a', 'r', 'e', 'S', 'e', 'r', 'i', 'a', 'l', 'E', 'n', 't', 'r', 'y'], defs := [Rfc4108.HardwareSerialEntry, Rfc5934.HardwareSerialEntry] },
   { name := ['H', 'a', 's', 'h'], defs := [Rfc2634.Hash] },
   { name := ['H', 'a', 's', 'h', 'A', 'l', 'g', 'A', 'n', 'd', 'V', 'a', 'l', 'u', 'e'], defs := [Rfc3709.HashAlgAndValue] },
   { name := ['H', 'a', 's', 'h', 'A', 'l', 'g', 'o', 'r', 'i', 't', 'h', 'm'], defs := [Rfc5280.AlgorithmIdentifier] },
   { name := ['H', 'a', 's', 'h', 'C', 'o', 'n', 't', 'e', 'n', 't'], defs := [Rfc4683.HashContent] },
   { name := ['H', 'a', 's', 'h', 'e', 'd', 'R', 'o', 'o', 't', 'K', 'e', 'y'], defs := [Rfc8649.HashedRootKey] },
   { name := ['H', 'e', 'a', 'd', 'e', 'r', 'D', 'a', 't', 'a'], defs := [Rfc3412.HeaderData] },
   { name := ['H', 'e', 'a', 'd', 'e', 'r', 'F', 'i', 'e', 'l', 'd'], defs := [Rfc7508.HeaderField] },
   { name := ['H', 'e', 'a', 'd', 'e', 'r', 'F', 'i', 'e', 'l', 'd', 'N', 'a', 'm', 'e'], defs := [Rfc7508.HeaderFieldName] },
   { name := ['H', 'e', 'a', 'd', 'e', 'r', 'F', 'i', 'e', 'l', 'd', 'S', 't', 'a', 't', 'u', 's'], defs := [Rfc7508.HeaderFieldStatus] },
   { name := ['H', 'e', 'a', 'd', 'e', 'r', 'F', 'i', 'e', 'l', 'd', 'V', 'a', 'l', 'u', 'e'], defs := [Rfc7508.HeaderFieldValue] },
   { name := ['H', 'e', 'a', 'd', 'e', 'r', 'F', 'i', 'e', 'l', 'd', 's'], defs := [Rfc7508.HeaderFields] },
   { name := ['H', 'o', 'l', 'd', 'I', 'n', 's', 't', 'r', 'u', 'c', 't', 'i', 'o', 'n', 'C', 'o', 'd', 'e'], defs := [Rfc2459.HoldInstructionCode, Rfc3280.HoldInstructionCode, Rfc5280.HoldInstructionCode] },
   { name := ['H', 'o', 'l', 'd', 'e', 'r'], defs := [Rfc3281.Holder, Rfc5755.Holder] },
   { name := ['H', 'o', 'w', 'C', 'e', 'r', 't', 'A', 't', 't', 'r', 'i', 'b', 'u', 't', 'e'], defs := [Rfc3125.HowCertAttribute] },
   { name := ['I', 'D', 'E', 'A', '_', 'C', 'B', 'C', 'P', 'a', 'r'], defs := [Rfc3058.IDEA_CBCPar] },
   { name := ['I', 'P', 'A', 'd', 'd', 'r', 'B', 'l', 'o', 'c', 'k', 's'], defs := [Rfc3779.IPAddrBlocks] },
   { name := ['I', 'P', 'A', 'd', 'd', 'r', 'e', 's', 's'], defs := [Rfc3779.IPAddress, Rfc6482.IPAddress] },
   { name := ['I', 'P', 'A', 'd', 'd', 'r', 'e', 's', 's', 'C', 'h', 'o', 'i', 'c', 'e'], defs := [Rfc3779.IPAddressChoice] },
   { name := ['I', 'P', 'A', 'd', 'd', 'r', 'e', 's', 's', 'F', 'a', 'm', 'i', 'l', 'y'], defs := [Rfc3779.IPAddressFamily] },
   { name := ['I', 'P', 'A', 'd', 'd', 'r', 'e', 's', 's', 'O', 'r', 'R', 'a', 'n', 'g', 'e'], defs := [Rfc3779.IPAddressOrRange] },
   { name := ['I', 'P', 'A', 'd', 'd', 'r', 'e', 's', 's', 'R', 'a', 'n', 'g', 'e'], defs := [Rfc3779.IPAddressRange] },
   { name := ['I', 'V'], defs := [Rfc5753.IV] }]

def block14 : List Group :=
  [{ name := ['I', 'd', 'e', 'n', 't', 'i', 'f', 'y', 'P', 'r', 'o', 'o', 'f', 'V', '2'], defs := [Rfc6402.IdentifyProofV2] },
   { name := ['I', 'e', 't', 'f', 'A', 't', 't', 'r', 'S', 'y', 'n', 't', 'a', 'x'], defs := [Rfc3281.IetfAttrSyntax, Rfc5755.IetfAttrSyntax] },
   { name := ['I', 'm', 'p', 'l', 'e', 'm', 'e', 'n', 't', 'e', 'd', 'C', 'o', 'm', 'p', 'r', 'e', 's', 's', 'A', 'l', 'g', 'o', 'r', 'i', 't', 'h', 'm', 's'], defs := [Rfc4108.ImplementedCompressAlgorithms] },
   { name := ['I', 'm', 'p', 'l', 'e', 'm', 'e', 'n', 't', 'e', 'd', 'C', 'r', 'y', 'p', 't', 'o', 'A', 'l', 'g', 'o', 'r', 'i', 't', 'h', 'm', 's'], defs := [Rfc4108.ImplementedCryptoAlgorithms] },
   { name := ['I', 'n', 'f', 'o', 'T', 'y', 'p', 'e', 'A', 'n', 'd', 'V', 'a', 'l', 'u', 'e'], defs := [Rfc4210.InfoTypeAndValue] },
   { name := ['I', 'n', 'f', 'o', 'r', 'm', 'R', 'e', 'q', 'u', 'e', 's', 't', 'P', 'D', 'U'], defs := [Rfc1905.InformRequestPDU] },
   { name := ['I', 'n', 'f', 'o', 'r', 'm', 'a', 't', 'i', 'v', 'e', 'T', 'a', 'g'], defs := [Rfc7906.InformativeTag] },
   { name := ['I', 'n', 'h', 'i', 'b', 'i', 't', 'A', 'n', 'y', 'P', 'o', 'l', 'i', 'c', 'y'], defs := [Rfc3280.SkipCerts, Rfc5280.SkipCerts] },
   { name := ['I', 'n', 't', 'e', 'g', 'e', 'r'], defs := [Rfc1902.Integer] },
   { name := ['I', 'n', 't', 'e', 'g', 'e', 'r', '3', '2'], defs := [Rfc1902.Integer32] },
   { name := ['I', 'n', 'v', 'a', 'l', 'i', 'd', 'i', 't', 'y', 'D', 'a', 't', 'e'], defs := [Rfc2459.InvalidityDate, Rfc3280.InvalidityDate, Rfc5280.InvalidityDate] },
   { name := ['I', 'p', 'A', 'd', 'd', 'r', 'e', 's', 's'], defs := [Rfc1155.IpAddress, Rfc1902.IpAddress] },
   { name := ['I', 's', 's', 'u', 'e', 'r', 'A', 'l', 't', 'N', 'a', 'm', 'e'], defs := [Rfc2459.GeneralNames, Rfc3280.GeneralNames, Rfc5280.GeneralNames],
     apart := [(0, 1, [48, 7, 165, 5, 161, 3, 22, 1, 65]),
       (0, 2, [48, 7, 165, 5, 161, 3, 22, 1, 65]),
       (1, 0, [48, 7, 163, 5, 48, 3, 128, 1, 65]),
       (2, 0, [48, 7, 163, 5, 48, 3, 128, 1, 65])] },
   { name := ['I', 's', 's', 'u', 'e', 'r', 'A', 'n', 'd', 'S', 'e', 'r', 'i', 'a', 'l', 'N', 'u', 'm', 'b', 'e', 'r'], defs := [Rfc2315.IssuerAndSerialNumber, Rfc5652.IssuerAndSerialNumber, Rfc3852.IssuerAndSerialNumber] },
   { name := ['I', 's', 's', 'u', 'e', 'r', 'S', 'e', 'r', 'i', 'a', 'l'], defs := [Rfc2634.IssuerSerial, Rfc3281.IssuerSerial, Rfc5755.IssuerSerial],
     apart := [(1, 0, [48, 10, 48, 2, 134, 0, 2, 1, 255, 3, 1, 0]),
       (2, 0, [48, 10, 48, 2, 134, 0, 2, 1, 255, 3, 1, 0])],
     other := [(0, 1), (0, 2)] },
   { name := ['I', 's', 's', 'u', 'i', 'n', 'g', 'D', 'i', 's', 't', 'r', 'i', 'b', 'u', 't', 'i', 'o', 'n', 'P', 'o', 'i', 'n', 't'], defs := [Rfc2459.IssuingDistributionPoint, Rfc3280.IssuingDistributionPoint, Rfc5280.IssuingDistributionPoint],
     apart := [(0, 1, [48, 20, 160, 9, 160, 7, 165, 5, 161, 3, 22, 1, 65, 129, 1, 0, 130, 1, 0, 132, 1, 0]),
       (0, 2, [48, 20, 160, 9, 160, 7, 165, 5, 161, 3, 22, 1, 65, 129, 1, 0, 130, 1, 0, 132, 1, 0]),
       (1, 0, [48, 0]),
       (2, 0, [48, 0])] },
   { name := ['J', 'W', 'T', 'C', 'l', 'a', 'i', 'm', 'C', 'o', 'n', 's', 't', 'r', 'a', 'i', 'n', 't', 's'], defs := [Rfc8226.JWTClaimConstraints] },
   { name := ['J', 'W', 'T', 'C', 'l', 'a', 'i', 'm', 'N', 'a', 'm', 'e'], defs := [Rfc8226.JWTClaimName] },
   { name := ['J', 'W', 'T', 'C', 'l', 'a', 'i', 'm', 'N', 'a', 'm', 'e', 's'], defs := [Rfc8226.JWTClaimNames] },
   { name := ['J', 'W', 'T', 'C', 'l', 'a', 'i', 'm', 'P', 'e', 'r', 'm', 'i', 't', 't', 'e', 'd', 'V', 'a', 'l', 'u', 'e', 's'], defs := [Rfc8226.JWTClaimPermittedValues] },
   { name := ['J', 'W', 'T', 'C', 'l', 'a', 'i', 'm', 'P', 'e', 'r', 'm', 'i', 't', 't', 'e', 'd', 'V', 'a', 'l', 'u', 'e', 's', 'L', 'i', 's', 't'], defs := [Rfc8226.JWTClaimPermittedValuesList] },
   { name := ['K', 'D', 'F', '2', '_', 'H', 'a', 's', 'h', 'F', 'u', 'n', 'c', 't', 'i', 'o', 'n'], defs := [Rfc5280.AlgorithmIdentifier] },
   { name := ['K', 'D', 'F', '3', '_', 'H', 'a', 's', 'h', 'F', 'u', 'n', 'c', 't', 'i', 'o', 'n'], defs := [Rfc5280.AlgorithmIdentifier] },
   { name := ['K', 'E', 'A', '_', 'P', 'a', 'r', 'm', 's', '_', 'I', 'd'], defs := [Rfc3279.KEA_Parms_Id] },
   { name := ['K', 'E', 'K', 'I', 'd', 'e', 'n', 't', 'i', 'f', 'i', 'e', 'r'], defs := [Rfc3852.KEKIdentifier, Rfc5652.KEKIdentifier] },
   { name := ['K', 'E', 'K', 'R', 'e', 'c', 'i', 'p', 'i', 'e', 'n', 't', 'I', 'n', 'f', 'o'], defs := [Rfc3852.KEKRecipientInfo, Rfc5652.KEKRecipientInfo] },
   { name := ['K', 'M', 'A', 'C', 'w', 'i', 't', 'h', 'S', 'H', 'A', 'K', 'E', '1', '2', '8', '_', 'p', 'a', 'r', 'a', 'm', 's'], defs := [Rfc8702.KMACwithSHAKE128_params] },
   { name := ['K', 'M', 'A', 'C', 'w', 'i', 't', 'h', 'S', 'H', 'A', 'K', 'E', '2', '5', '6', '_', 'p', 'a', 'r', 'a', 'm', 's'], defs := [Rfc8702.KMACwithSHAKE256_params] },
   { name := ['K', 'e', 'y', 'A', 'g', 'r', 'e', 'e', 'P', 'S', 'K', 'R', 'e', 'c', 'i', 'p', 'i', 'e', 'n', 't', 'I', 'n', 'f', 'o'], defs := [Rfc8696.KeyAgreePSKRecipientInfo] },
   { name := ['K', 'e', 'y', 'A', 'g', 'r', 'e', 'e', 'R', 'e', 'c', 'i', 'p', 'i', 'e', 'n', 't', 'I', 'd', 'e', 'n', 't', 'i', 'f', 'i', 'e', 'r'], defs := [Rfc3852.KeyAgreeRecipientIdentifier, Rfc5652.KeyAgreeRecipientIdentifier] },
   { name := ['K', 'e', 'y', 'A', 'g', 'r', 'e', 'e', 'R', 'e', 'c', 'i', 'p', 'i', 'e', 'n', 't', 'I', 'n', 'f', 'o'], defs := [Rfc3852.KeyAgreeRecipientInfo, Rfc5652.KeyAgreeRecipientInfo] },
   { name := ['K', 'e', 'y', 'A', 'l', 'g', 'o', 'r', 'i', 't', 'h', 'm'], defs := [Rfc7906.KeyAlgorithm] }]

def block15 : List Group :=
  [{ name := ['K', 'e', 'y', 'B', 'a', 'g'], defs := [Rfc5958.OneAsymmetricKey] },
   { name := ['K', 'e', 'y', 'D', 'e', 'r', 'i', 'v', 'a', 't', 'i', 'o', 'n', 'A', 'l', 'g', 'o', 'r', 'i', 't', 'h', 'm', 'I', 'd', 'e', 'n', 't', 'i', 'f', 'i', 'e', 'r'], defs := [Rfc3280.AlgorithmIdentifier, Rfc5280.AlgorithmIdentifier] },
   { name := ['K', 'e', 'y', 'D', 'e', 'r', 'i', 'v', 'a', 't', 'i', 'o', 'n', 'F', 'u', 'n', 'c', 't', 'i', 'o', 'n'], defs := [Rfc5280.AlgorithmIdentifier] },
   { name := ['K', 'e', 'y', 'D', 'i', 's', 't', 'P', 'e', 'r', 'i', 'o', 'd'], defs := [Rfc7906.KeyDistPeriod] },
   { name := ['K', 'e', 'y', 'D', 'u', 'r', 'a', 't', 'i', 'o', 'n'], defs := [Rfc7906.KeyDuration] },
   { name := ['K', 'e', 'y', 'E', 'n', 'c', 'a', 'p', 's', 'u', 'l', 'a', 't', 'i', 'o', 'n', 'M', 'e', 'c', 'h', 'a', 'n', 'i', 's', 'm'], defs := [Rfc5280.AlgorithmIdentifier] },
   { name := ['K', 'e', 'y', 'E', 'n', 'c', 'r', 'y', 'p', 't', 'i', 'o', 'n', 'A', 'l', 'g', 'o', 'r', 'i', 't', 'h', 'm', 'I', 'd', 'e', 'n', 't', 'i', 'f', 'i', 'e', 'r'], defs := [Rfc2459.AlgorithmIdentifier, Rfc3280.AlgorithmIdentifier, Rfc5280.AlgorithmIdentifier] },
   { name := ['K', 'e', 'y', 'E', 'n', 'c', 'r', 'y', 'p', 't', 'i', 'o', 'n', 'A', 'l', 'g', 'o', 'r', 'i', 't', 'h', 'm', 's'], defs := [Rfc2459.AlgorithmIdentifier] },
   { name := ['K', 'e', 'y', 'G', 'e', 'n', 'P', 'a', 'r', 'a', 'm', 'e', 't', 'e', 'r', 's'], defs := [Rfc2511.KeyGenParameters, Rfc4211.KeyGenParameters] },
   { name := ['K', 'e', 'y', 'H', 'a', 's', 'h'], defs := [Rfc2560.KeyHash] },
   { name := ['K', 'e', 'y', 'I', 'd', 'e', 'n', 't', 'i', 'f', 'i', 'e', 'r'], defs := [Rfc2459.KeyIdentifier, Rfc3280.KeyIdentifier, Rfc4210.KeyIdentifier, Rfc5280.KeyIdentifier] },
   { name := ['K', 'e', 'y', 'I', 'd', 'e', 'n', 't', 'i', 'f', 'i', 'e', 'r', 's'], defs := [Rfc5934.KeyIdentifiers] },
   { name := ['K', 'e', 'y', 'L', 'e', 'n', 'g', 't', 'h'], defs := [Rfc5990.KeyLength] },
   { name := ['K', 'e', 'y', 'P', 'a', 'c', 'k', 'a', 'g', 'e', 'E', 'r', 'r', 'o', 'r'], defs := [Rfc7191.KeyPackageError] },
   { name := ['K', 'e', 'y', 'P', 'a', 'c', 'k', 'a', 'g', 'e', 'R', 'e', 'c', 'e', 'i', 'p', 't'], defs := [Rfc7191.KeyPackageReceipt] },
   { name := ['K', 'e', 'y', 'P', 'k', 'g', 'I', 'D'], defs := [Rfc7191.KeyPkgID] },
   { name := ['K', 'e', 'y', 'P', 'k', 'g', 'I', 'd', 'e', 'n', 't', 'i', 'f', 'i', 'e', 'r'], defs := [Rfc7191.KeyPkgIdentifier] },
   { name := ['K', 'e', 'y', 'P', 'k', 'g', 'I', 'd', 'e', 'n', 't', 'i', 'f', 'i', 'e', 'r', 'A', 'n', 'd', 'R', 'e', 'c', 'e', 'i', 'p', 't', 'R', 'e', 'q'], defs := [Rfc7191.KeyPkgIdentifierAndReceiptReq] },
   { name := ['K', 'e', 'y', 'P', 'k', 'g', 'R', 'e', 'c', 'e', 'i', 'p', 't', 'R', 'e', 'q'], defs := [Rfc7191.KeyPkgReceiptReq] },
   { name := ['K', 'e', 'y', 'P', 'k', 'g', 'R', 'e', 'c', 'e', 'i', 'v', 'e', 'r'], defs := [Rfc7906.KeyPkgReceiver] },
   { name := ['K', 'e', 'y', 'P', 'k', 'g', 'R', 'e', 'c', 'e', 'i', 'v', 'e', 'r', 's', 'V', '2'], defs := [Rfc7906.KeyPkgReceiversV2] },
   { name := ['K', 'e', 'y', 'P', 'k', 'g', 'T', 'y', 'p', 'e'], defs := [Rfc7906.KeyPkgType] },
   { name := ['K', 'e', 'y', 'P', 'k', 'g', 'V', 'e', 'r', 's', 'i', 'o', 'n'], defs := [Rfc6031.KeyPkgVersion, Rfc7191.KeyPkgVersion],
     apart := [(0, 1, [2, 1, 255])] },
   { name := ['K', 'e', 'y', 'P', 'r', 'o', 'v', 'i', 'n', 'c', 'e', 'V', '2'], defs := [Rfc7906.KeyProvinceV2] },
   { name := ['K', 'e', 'y', 'P', 'u', 'r', 'p', 'o', 's', 'e'], defs := [Rfc7906.KeyPurpose] },
   { name := ['K', 'e', 'y', 'P', 'u', 'r', 'p', 'o', 's', 'e', 'I', 'd'], defs := [Rfc2459.KeyPurposeId, Rfc3280.KeyPurposeId, Rfc5280.KeyPurposeId] },
   { name := ['K', 'e', 'y', 'R', 'e', 'c', 'R', 'e', 'p', 'C', 'o', 'n', 't', 'e', 'n', 't'], defs := [Rfc4210.KeyRecRepContent] },
   { name := ['K', 'e', 'y', 'S', 'p', 'e', 'c', 'i', 'f', 'i', 'c', 'I', 'n', 'f', 'o'], defs := [Rfc2631.KeySpecificInfo] },
   { name := ['K', 'e', 'y', 'T', 'r', 'a', 'n', 's', 'P', 'S', 'K', 'R', 'e', 'c', 'i', 'p', 'i', 'e', 'n', 't', 'I', 'n', 'f', 'o'], defs := [Rfc8696.KeyTransPSKRecipientInfo] },
   { name := ['K', 'e', 'y', 'T', 'r', 'a', 'n', 's', 'R', 'e', 'c', 'i', 'p', 'i', 'e', 'n', 't', 'I', 'n', 'f', 'o'], defs := [Rfc3852.KeyTransRecipientInfo, Rfc5652.KeyTransRecipientInfo] },
   { name := ['K', 'e', 'y', 'T', 'r', 'a', 'n', 's', 'R', 'e', 'c', 'i', 'p', 'i', 'e', 'n', 't', 'I', 'n', 'f', 'o', 's'], defs := [Rfc8696.KeyTransRecipientInfos] },
   { name := ['K', 'e', 'y', 'U', 's', 'a', 'g', 'e'], defs := [Rfc2459.KeyUsage, Rfc3280.KeyUsage, Rfc5280.KeyUsage] }]

def block16 : List Group :=
  [{ name := ['K', 'e', 'y', 'U', 's', 'e'], defs := [Rfc7906.KeyUse] },
   { name := ['K', 'e', 'y', 'V', 'a', 'l', 'i', 'd', 'i', 't', 'y', 'P', 'e', 'r', 'i', 'o', 'd'], defs := [Rfc7906.KeyValidityPeriod] },
   { name := ['K', 'e', 'y', 'W', 'r', 'a', 'p', 'A', 'l', 'g', 'o', 'r', 'i', 't', 'h', 'm'], defs := [Rfc5280.AlgorithmIdentifier] },
   { name := ['K', 'e', 'y', 'W', 'r', 'a', 'p', 'A', 'l', 'g', 'o', 'r', 'i', 't', 'h', 'm', 'I', 'd', 'e', 'n', 't', 'i', 'f', 'i', 'e', 'r'], defs := [Rfc5280.AlgorithmIdentifier] },
   { name := ['L', 'D', 'A', 'P', 'D', 'N'], defs := [Rfc2251.LDAPString] },
   { name := ['L', 'D', 'A', 'P', 'M', 'e', 's', 's', 'a', 'g', 'e'], defs := [Rfc2251.LDAPMessage] },
   { name := ['L', 'D', 'A', 'P', 'O', 'I', 'D'], defs := [Rfc2251.LDAPOID] },
   { name := ['L', 'D', 'A', 'P', 'R', 'e', 's', 'u', 'l', 't'], defs := [Rfc2251.LDAPResult] },
   { name := ['L', 'D', 'A', 'P', 'S', 't', 'r', 'i', 'n', 'g'], defs := [Rfc2251.LDAPString] },
   { name := ['L', 'D', 'A', 'P', 'U', 'R', 'L'], defs := [Rfc2251.LDAPString] },
   { name := ['L', 'o', 'c', 'a', 'l', 'P', 'o', 's', 't', 'a', 'l', 'A', 't', 't', 'r', 'i', 'b', 'u', 't', 'e', 's'], defs := [Rfc2459.PDSParameter, Rfc3280.PDSParameter, Rfc5280.PDSParameter] },
   { name := ['L', 'o', 'g', 'o', 't', 'y', 'p', 'e', 'A', 'u', 'd', 'i', 'o'], defs := [Rfc3709.LogotypeAudio] },
   { name := ['L', 'o', 'g', 'o', 't', 'y', 'p', 'e', 'A', 'u', 'd', 'i', 'o', 'I', 'n', 'f', 'o'], defs := [Rfc3709.LogotypeAudioInfo] },
   { name := ['L', 'o', 'g', 'o', 't', 'y', 'p', 'e', 'D', 'a', 't', 'a'], defs := [Rfc3709.LogotypeData] },
   { name := ['L', 'o', 'g', 'o', 't', 'y', 'p', 'e', 'D', 'e', 't', 'a', 'i', 'l', 's'], defs := [Rfc3709.LogotypeDetails] },
   { name := ['L', 'o', 'g', 'o', 't', 'y', 'p', 'e', 'E', 'x', 't', 'n'], defs := [Rfc3709.LogotypeExtn] },
   { name := ['L', 'o', 'g', 'o', 't', 'y', 'p', 'e', 'I', 'm', 'a', 'g', 'e'], defs := [Rfc3709.LogotypeImage] },
   { name := ['L', 'o', 'g', 'o', 't', 'y', 'p', 'e', 'I', 'm', 'a', 'g', 'e', 'I', 'n', 'f', 'o'], defs := [Rfc3709.LogotypeImageInfo] },
   { name := ['L', 'o', 'g', 'o', 't', 'y', 'p', 'e', 'I', 'm', 'a', 'g', 'e', 'R', 'e', 's', 'o', 'l', 'u', 't', 'i', 'o', 'n'], defs := [Rfc3709.LogotypeImageResolution] },
   { name := ['L', 'o', 'g', 'o', 't', 'y', 'p', 'e', 'I', 'm', 'a', 'g', 'e', 'T', 'y', 'p', 'e'], defs := [Rfc3709.LogotypeImageType] },
   { name := ['L', 'o', 'g', 'o', 't', 'y', 'p', 'e', 'I', 'n', 'f', 'o'], defs := [Rfc3709.LogotypeInfo] },
   { name := ['L', 'o', 'g', 'o', 't', 'y', 'p', 'e', 'R', 'e', 'f', 'e', 'r', 'e', 'n', 'c', 'e'], defs := [Rfc3709.LogotypeReference] },
   { name := ['L', 'r', 'a', 'P', 'o', 'p', 'W', 'i', 't', 'n', 'e', 's', 's'], defs := [Rfc6402.LraPopWitness] },
   { name := ['M', 'D', '5', '_', 'X', 'O', 'R', '_', 'E', 'X', 'P', 'E', 'R', 'I', 'M', 'E', 'N', 'T'], defs := [Rfc6210.MD5_XOR_EXPERIMENT] },
   { name := ['M', 'L', 'D', 'a', 't', 'a'], defs := [Rfc2634.MLData] },
   { name := ['M', 'L', 'E', 'x', 'p', 'a', 'n', 's', 'i', 'o', 'n', 'H', 'i', 's', 't', 'o', 'r', 'y'], defs := [Rfc2634.MLExpansionHistory] },
   { name := ['M', 'L', 'R', 'e', 'c', 'e', 'i', 'p', 't', 'P', 'o', 'l', 'i', 'c', 'y'], defs := [Rfc2634.MLReceiptPolicy] },
   { name := ['M', 'Q', 'V', 'u', 's', 'e', 'r', 'K', 'e', 'y', 'i', 'n', 'g', 'M', 'a', 't', 'e', 'r', 'i', 'a', 'l'], defs := [Rfc5753.MQVuserKeyingMaterial] },
   { name := ['M', 'U', 'D', 'U', 'R', 'L', 'S', 'y', 'n', 't', 'a', 'x'], defs := [Rfc8520.MUDURLSyntax] },
   { name := ['M', 'U', 'D', 's', 'i', 'g', 'n', 'e', 'r', 'S', 'y', 'n', 't', 'a', 'x'], defs := [Rfc5280.Name] },
   { name := ['M', 'a', 'c', 'D', 'a', 't', 'a'], defs := [Rfc7292.MacData] },
   { name := ['M', 'a', 'n', 'd', 'a', 't', 'e', 'd', 'U', 'n', 's', 'i', 'g', 'n', 'e', 'd', 'A', 't', 't', 'r'], defs := [Rfc3125.CMSAttrs] }]

def block17 : List Group :=
  [{ name := ['M', 'a', 'n', 'i', 'f', 'e', 's', 't'], defs := [Rfc6486.Manifest, Rfc7906.Manifest],
     apart := [(0, 1, [48, 42, 2, 1, 0, 24, 15, 49, 57, 55, 48, 48, 49, 48, 49, 48, 48, 48, 48, 48, 48, 90, 24, 15, 49, 57, 55, 48, 48, 49, 48, 49, 48, 48, 48, 48, 48, 48, 90, 6, 1, 42, 48, 0]),
       (1, 0, [48, 2, 19, 0])] },
   { name := ['M', 'a', 's', 'k', 'G', 'e', 'n', 'A', 'l', 'g', 'o', 'r', 'i', 't', 'h', 'm'], defs := [Rfc5280.AlgorithmIdentifier] },
   { name := ['M', 'a', 't', 'c', 'h', 'i', 'n', 'g', 'R', 'u', 'l', 'e', 'A', 's', 's', 'e', 'r', 't', 'i', 'o', 'n'], defs := [Rfc2251.MatchingRuleAssertion] },
   { name := ['M', 'a', 't', 'c', 'h', 'i', 'n', 'g', 'R', 'u', 'l', 'e', 'I', 'd'], defs := [Rfc2251.LDAPString] },
   { name := ['M', 'e', 's', 's', 'a', 'g', 'e'], defs := [Rfc1157.Message, Rfc1901.Message],
     apart := [(1, 0, [48, 7, 2, 1, 1, 4, 0, 5, 0])] },
   { name := ['M', 'e', 's', 's', 'a', 'g', 'e', 'A', 'u', 't', 'h', 'e', 'n', 't', 'i', 'c', 'a', 't', 'i', 'o', 'n', 'C', 'o', 'd', 'e'], defs := [Rfc3852.MessageAuthenticationCode, Rfc5652.MessageAuthenticationCode] },
   { name := ['M', 'e', 's', 's', 'a', 'g', 'e', 'A', 'u', 't', 'h', 'e', 'n', 't', 'i', 'c', 'a', 't', 'i', 'o', 'n', 'C', 'o', 'd', 'e', 'A', 'l', 'g', 'o', 'r', 'i', 't', 'h', 'm'], defs := [Rfc3280.AlgorithmIdentifier, Rfc5280.AlgorithmIdentifier] },
   { name := ['M', 'e', 's', 's', 'a', 'g', 'e', 'D', 'i', 'g', 'e', 's', 't'], defs := [Rfc5652.MessageDigest, Rfc3852.MessageDigest] },
   { name := ['M', 'e', 's', 's', 'a', 'g', 'e', 'I', 'D'], defs := [Rfc2251.MessageID] },
   { name := ['M', 'e', 's', 's', 'a', 'g', 'e', 'I', 'm', 'p', 'r', 'i', 'n', 't'], defs := [Rfc3161.MessageImprint] },
   { name := ['M', 'o', 'd', 'C', 'e', 'r', 't', 'T', 'e', 'm', 'p', 'l', 'a', 't', 'e'], defs := [Rfc6402.ModCertTemplate] },
   { name := ['M', 'o', 'd', 'i', 'f', 'y', 'D', 'N', 'R', 'e', 'q', 'u', 'e', 's', 't'], defs := [Rfc2251.ModifyDNRequest] },
   { name := ['M', 'o', 'd', 'i', 'f', 'y', 'D', 'N', 'R', 'e', 's', 'p', 'o', 'n', 's', 'e'], defs := [Rfc2251.ModifyDNResponse] },
   { name := ['M', 'o', 'd', 'i', 'f', 'y', 'R', 'e', 'q', 'u', 'e', 's', 't'], defs := [Rfc2251.ModifyRequest] },
   { name := ['M', 'o', 'd', 'i', 'f', 'y', 'R', 'e', 's', 'p', 'o', 'n', 's', 'e'], defs := [Rfc2251.ModifyResponse] },
   { name := ['M', 's', 'g', 'S', 'i', 'g', 'D', 'i', 'g', 'e', 's', 't'], defs := [Rfc2634.MsgSigDigest] },
   { name := ['M', 'u', 'l', 't', 'i', 'p', 'l', 'e', 'S', 'i', 'g', 'n', 'a', 't', 'u', 'r', 'e', 's'], defs := [Rfc5752.MultipleSignatures] },
   { name := ['N', 'A', 'I', 'R', 'e', 'a', 'l', 'm'], defs := [Rfc7585.NAIRealm] },
   { name := ['N', 'a', 'm', 'e'], defs := [Rfc2459.Name, Rfc5280.Name, Rfc3280.Name] },
   { name := ['N', 'a', 'm', 'e', 'C', 'o', 'n', 's', 't', 'r', 'a', 'i', 'n', 't', 's'], defs := [Rfc2459.NameConstraints, Rfc3125.NameConstraints, Rfc3280.NameConstraints, Rfc5280.NameConstraints],
     apart := [(0, 1, [48, 6, 160, 4, 48, 2, 130, 0]),
       (0, 2, [48, 60, 160, 58, 48, 56, 163, 54, 48, 52, 97, 5, 18, 3, 65, 65, 65, 98, 2, 18, 0, 160, 3, 18, 1, 65, 161, 3, 19, 1, 65, 162, 3, 18, 1, 65, 163, 3, 19, 1, 65, 164, 3, 18, 1, 65, 165, 7, 49, 5, 160, 3, 19, 1, 65, 166, 5, 48, 3, 19, 1, 65]),
       (0, 3, [48, 60, 160, 58, 48, 56, 163, 54, 48, 52, 97, 5, 18, 3, 65, 65, 65, 98, 2, 18, 0, 160, 3, 18, 1, 65, 161, 3, 19, 1, 65, 162, 3, 18, 1, 65, 163, 3, 19, 1, 65, 164, 3, 18, 1, 65, 165, 7, 49, 5, 160, 3, 19, 1, 65, 166, 5, 48, 3, 19, 1, 65]),
       (1, 0, [48, 8, 160, 6, 48, 4, 48, 2, 129, 0]),
       (1, 2, [48, 8, 160, 6, 48, 4, 48, 2, 129, 0]),
       (1, 3, [48, 8, 160, 6, 48, 4, 48, 2, 129, 0]),
       (2, 0, [48, 19, 160, 17, 48, 15, 163, 13, 48, 0, 49, 9, 48, 7, 128, 1, 0, 161, 2, 5, 0]),
       (2, 1, [48, 6, 160, 4, 48, 2, 129, 0]),
       (3, 0, [48, 19, 160, 17, 48, 15, 163, 13, 48, 0, 49, 9, 48, 7, 128, 1, 0, 161, 2, 5, 0]),
       (3, 1, [48, 6, 160, 4, 48, 2, 129, 0])] },
   { name := ['N', 'a', 'm', 'e', 'R', 'e', 'g', 'i', 's', 't', 'r', 'a', 't', 'i', 'o', 'n', 'A', 'u', 't', 'h', 'o', 'r', 'i', 't', 'i', 'e', 's'], defs := [Rfc3739.NameRegistrationAuthorities] },
   { name := ['N', 'e', 's', 't', 'e', 'd', 'M', 'e', 's', 's', 'a', 'g', 'e', 'C', 'o', 'n', 't', 'e', 'n', 't'], defs := [Rfc4210.NestedMessageContent] },
   { name := ['N', 'e', 't', 'w', 'o', 'r', 'k', 'A', 'd', 'd', 'r', 'e', 's', 's'], defs := [Rfc1155.NetworkAddress, Rfc2459.X121Address, Rfc3280.X121Address, Rfc5280.X121Address],
     apart := [(0, 1, [64, 4, 0, 0, 0, 0]),
       (0, 2, [64, 4, 0, 0, 0, 0]),
       (0, 3, [64, 4, 0, 0, 0, 0]),
       (1, 0, [18, 1, 48]),
       (2, 0, [18, 1, 48]),
       (3, 0, [18, 1, 48])] },
   { name := ['N', 'o', 'S', 'i', 'g', 'n', 'a', 't', 'u', 'r', 'e', 'V', 'a', 'l', 'u', 'e'], defs := [Rfc6402.NoSignatureValue] },
   { name := ['N', 'o', 't', 'i', 'c', 'e', 'R', 'e', 'f', 'e', 'r', 'e', 'n', 'c', 'e'], defs := [Rfc2459.NoticeReference, Rfc3280.NoticeReference, Rfc5126.NoticeReference, Rfc5280.NoticeReference],
     apart := [(1, 0, [48, 5, 22, 1, 65, 48, 0]),
       (1, 2, [48, 5, 22, 1, 65, 48, 0]),
       (3, 0, [48, 5, 22, 1, 65, 48, 0]),
       (3, 2, [48, 5, 22, 1, 65, 48, 0])] },
   { name := ['N', 'u', 'l', 'l', 'P', 'a', 'r', 'm', 's'], defs := [Rfc5990.NullParms] },
   { name := ['N', 'u', 'm', 'E', 'd', 'i', 't', 'i', 'o', 'n'], defs := [Rfc7906.NumEdition] },
   { name := ['N', 'u', 'm', 'E', 'd', 'i', 't', 'i', 'o', 'n', 'R', 'a', 'n', 'g', 'e'], defs := [Rfc7906.NumEditionRange] },
   { name := ['N', 'u', 'm', 'e', 'r', 'i', 'c', 'U', 's', 'e', 'r', 'I', 'd', 'e', 'n', 't', 'i', 'f', 'i', 'e', 'r'], defs := [Rfc2459.NumericUserIdentifier, Rfc3280.NumericUserIdentifier, Rfc5280.NumericUserIdentifier] },
   { name := ['O', 'C', 'S', 'P', 'R', 'e', 'q', 'u', 'e', 's', 't'], defs := [Rfc2560.OCSPRequest, Rfc6960.OCSPRequest],
     apart := [(0, 1, [48, 24, 48, 22, 161, 2, 4, 0, 48, 16, 48, 14, 48, 12, 48, 3, 6, 1, 42, 4, 0, 4, 0, 2, 1, 255]),
       (1, 0, [48, 24, 48, 22, 161, 2, 135, 0, 48, 16, 48, 14, 48, 12, 48, 3, 6, 1, 42, 4, 0, 4, 0, 2, 1, 255])] },
   { name := ['O', 'C', 'S', 'P', 'R', 'e', 's', 'p', 'o', 'n', 's', 'e'], defs := [Rfc2560.OCSPResponse] },
   { name := ['O', 'C', 'S', 'P', 'R', 'e', 's', 'p', 'o', 'n', 's', 'e', 'S', 't', 'a', 't', 'u', 's'], defs := [Rfc2560.OCSPResponseStatus] }]

def block18 : List Group :=
  [{ name := ['O', 'O', 'B', 'C', 'e', 'r', 't'], defs := [Rfc2459.Certificate] },
   { name := ['O', 'O', 'B', 'C', 'e', 'r', 't', 'H', 'a', 's', 'h'], defs := [Rfc4210.OOBCertHash] },
   { name := ['O', 'R', 'A', 'd', 'd', 'r', 'e', 's', 's'], defs := [Rfc2459.ORAddress, Rfc3280.ORAddress, Rfc5280.ORAddress],
     apart := [(0, 1, [48, 7, 48, 5, 161, 3, 19, 1, 64]),
       (0, 2, [48, 7, 48, 5, 161, 3, 19, 1, 64]),
       (1, 0, [48, 5, 48, 3, 129, 1, 48]),
       (2, 0, [48, 5, 48, 3, 129, 1, 48])] },
   { name := ['O', 'b', 'j', 'e', 'c', 't', 'D', 'i', 'g', 'e', 's', 't', 'I', 'n', 'f', 'o'], defs := [Rfc3281.ObjectDigestInfo, Rfc5755.ObjectDigestInfo] },
   { name := ['O', 'b', 'j', 'e', 'c', 't', 'N', 'a', 'm', 'e'], defs := [Rfc1155.ObjectName, Rfc1902.ObjectName] },
   { name := ['O', 'b', 'j', 'e', 'c', 't', 'S', 'y', 'n', 't', 'a', 'x'], defs := [Rfc1155.ObjectSyntax, Rfc1902.ObjectSyntax],
     apart := [(0, 1, [5, 0]),
       (1, 0, [70, 1, 0])] },
   { name := ['O', 'c', 's', 'p', 'I', 'd', 'e', 'n', 't', 'i', 'f', 'i', 'e', 'r'], defs := [Rfc5126.OcspIdentifier] },
   { name := ['O', 'c', 's', 'p', 'L', 'i', 's', 't', 'I', 'D'], defs := [Rfc5126.OcspListID] },
   { name := ['O', 'c', 's', 'p', 'R', 'e', 's', 'p', 'o', 'n', 's', 'e', 's', 'I', 'D'], defs := [Rfc5126.OcspResponsesID] },
   { name := ['O', 'c', 't', 'e', 't', 'S', 't', 'r', 'i', 'n', 'g'], defs := [Rfc1902.OctetString] },
   { name := ['O', 'l', 'd', 'C', 'e', 'r', 't', 'I', 'd'], defs := [Rfc2511.CertId, Rfc4211.CertId],
     apart := [(0, 1, [48, 5, 4, 0, 2, 1, 1]),
       (1, 0, [48, 5, 130, 0, 2, 1, 255])] },
   { name := ['O', 'n', 'e', 'A', 's', 'y', 'm', 'm', 'e', 't', 'r', 'i', 'c', 'K', 'e', 'y'], defs := [Rfc5958.OneAsymmetricKey] },
   { name := ['O', 'n', 'e', 'S', 'y', 'm', 'm', 'e', 't', 'r', 'i', 'c', 'K', 'e', 'y'], defs := [Rfc6031.OneSymmetricKey] },
   { name := ['O', 'p', 'a', 'q', 'u', 'e'], defs := [Rfc1155.Opaque, Rfc1902.Opaque] },
   { name := ['O', 'p', 't', 'i', 'o', 'n', 'a', 'l', 'V', 'a', 'l', 'i', 'd', 'i', 't', 'y'], defs := [Rfc2511.OptionalValidity, Rfc4211.OptionalValidity] },
   { name := ['O', 'r', 'g', 'a', 'n', 'i', 'z', 'a', 't', 'i', 'o', 'n', 'N', 'a', 'm', 'e'], defs := [Rfc2459.OrganizationName, Rfc3280.OrganizationName, Rfc5280.OrganizationName] },
   { name := ['O', 'r', 'g', 'a', 'n', 'i', 'z', 'a', 't', 'i', 'o', 'n', 'a', 'l', 'U', 'n', 'i', 't', 'N', 'a', 'm', 'e'], defs := [Rfc2459.OrganizationalUnitName, Rfc3280.OrganizationalUnitName, Rfc5280.OrganizationalUnitName] },
   { name := ['O', 'r', 'g', 'a', 'n', 'i', 'z', 'a', 't', 'i', 'o', 'n', 'a', 'l', 'U', 'n', 'i', 't', 'N', 'a', 'm', 'e', 's'], defs := [Rfc2459.OrganizationalUnitNames, Rfc3280.OrganizationalUnitNames, Rfc5280.OrganizationalUnitNames] },
   { name := ['O', 'r', 'i', 'g', 'i', 'n', 'a', 't', 'o', 'r', 'I', 'd', 'e', 'n', 't', 'i', 'f', 'i', 'e', 'r', 'O', 'r', 'K', 'e', 'y'], defs := [Rfc3852.OriginatorIdentifierOrKey, Rfc5652.OriginatorIdentifierOrKey] },
   { name := ['O', 'r', 'i', 'g', 'i', 'n', 'a', 't', 'o', 'r', 'I', 'n', 'f', 'o'], defs := [Rfc3852.OriginatorInfo, Rfc5652.OriginatorInfo] },
   { name := ['O', 'r', 'i', 'g', 'i', 'n', 'a', 't', 'o', 'r', 'P', 'u', 'b', 'l', 'i', 'c', 'K', 'e', 'y'], defs := [Rfc3852.OriginatorPublicKey, Rfc5652.OriginatorPublicKey] },
   { name := ['O', 't', 'h', 'e', 'r', 'C', 'e', 'r', 't', 'I', 'D'], defs := [Rfc5126.OtherCertID] },
   { name := ['O', 't', 'h', 'e', 'r', 'C', 'e', 'r', 't', 'i', 'f', 'i', 'c', 'a', 't', 'e', 'F', 'o', 'r', 'm', 'a', 't'], defs := [Rfc3852.OtherCertificateFormat, Rfc5652.OtherCertificateFormat] },
   { name := ['O', 't', 'h', 'e', 'r', 'C', 'e', 'r', 't', 'i', 'f', 'i', 'c', 'a', 't', 'e', 's'], defs := [Rfc5697.OtherCertificates] },
   { name := ['O', 't', 'h', 'e', 'r', 'H', 'a', 's', 'h'], defs := [Rfc5126.OtherHash] },
   { name := ['O', 't', 'h', 'e', 'r', 'H', 'a', 's', 'h', 'A', 'l', 'g', 'A', 'n', 'd', 'V', 'a', 'l', 'u', 'e'], defs := [Rfc5126.OtherHashAlgAndValue] },
   { name := ['O', 't', 'h', 'e', 'r', 'H', 'a', 's', 'h', 'V', 'a', 'l', 'u', 'e'], defs := [Rfc5126.OtherHashValue] },
   { name := ['O', 't', 'h', 'e', 'r', 'I', 'n', 'f', 'o'], defs := [Rfc2631.OtherInfo] },
   { name := ['O', 't', 'h', 'e', 'r', 'K', 'e', 'y', 'A', 't', 't', 'r', 'i', 'b', 'u', 't', 'e'], defs := [Rfc3852.OtherKeyAttribute, Rfc5652.OtherKeyAttribute] },
   { name := ['O', 't', 'h', 'e', 'r', 'L', 'o', 'g', 'o', 't', 'y', 'p', 'e', 'I', 'n', 'f', 'o'], defs := [Rfc3709.OtherLogotypeInfo] },
   { name := ['O', 't', 'h', 'e', 'r', 'M', 's', 'g'], defs := [Rfc6402.OtherMsg] },
   { name := ['O', 't', 'h', 'e', 'r', 'P', 'r', 'i', 'm', 'e', 'I', 'n', 'f', 'o'], defs := [Rfc3447.OtherPrimeInfo] }]

def block19 : List Group :=
  [{ name := ['O', 't', 'h', 'e', 'r', 'P', 'r', 'i', 'm', 'e', 'I', 'n', 'f', 'o', 's'], defs := [Rfc3447.OtherPrimeInfos] },
   { name := ['O', 't', 'h', 'e', 'r', 'R', 'e', 'c', 'i', 'p', 'i', 'e', 'n', 't', 'I', 'n', 'f', 'o'], defs := [Rfc3852.OtherRecipientInfo, Rfc5652.OtherRecipientInfo] },
   { name := ['O', 't', 'h', 'e', 'r', 'R', 'e', 'v', 'R', 'e', 'f', 'T', 'y', 'p', 'e'], defs := [Rfc5126.OtherRevRefType] },
   { name := ['O', 't', 'h', 'e', 'r', 'R', 'e', 'v', 'R', 'e', 'f', 's'], defs := [Rfc5126.OtherRevRefs] },
   { name := ['O', 't', 'h', 'e', 'r', 'R', 'e', 'v', 'V', 'a', 'l', 'T', 'y', 'p', 'e'], defs := [Rfc5126.OtherRevValType] },
   { name := ['O', 't', 'h', 'e', 'r', 'R', 'e', 'v', 'V', 'a', 'l', 's'], defs := [Rfc5126.OtherRevVals] },
   { name := ['O', 't', 'h', 'e', 'r', 'R', 'e', 'v', 'o', 'c', 'a', 't', 'i', 'o', 'n', 'I', 'n', 'f', 'o', 'F', 'o', 'r', 'm', 'a', 't'], defs := [Rfc3852.OtherRevocationInfoFormat, Rfc5652.OtherRevocationInfoFormat] },
   { name := ['O', 't', 'h', 'e', 'r', 'S', 'i', 'g', 'n', 'i', 'n', 'g', 'C', 'e', 'r', 't', 'i', 'f', 'i', 'c', 'a', 't', 'e'], defs := [Rfc5126.OtherSigningCertificate] },
   { name := ['P', 'B', 'E', 'P', 'a', 'r', 'a', 'm', 'e', 't', 'e', 'r'], defs := [Rfc8018.PBEParameter] },
   { name := ['P', 'B', 'E', 'S', '2', '_', 'p', 'a', 'r', 'a', 'm', 's'], defs := [Rfc8018.PBES2_params] },
   { name := ['P', 'B', 'K', 'D', 'F', '2', '_', 'p', 'a', 'r', 'a', 'm', 's'], defs := [Rfc8018.PBKDF2_params] },
   { name := ['P', 'B', 'M', 'A', 'C', '1', '_', 'p', 'a', 'r', 'a', 'm', 's'], defs := [Rfc8018.PBMAC1_params] },
   { name := ['P', 'B', 'M', 'P', 'a', 'r', 'a', 'm', 'e', 't', 'e', 'r'], defs := [Rfc2511.PBMParameter, Rfc4210.PBMParameter, Rfc4211.PBMParameter],
     apart := [(0, 1, [48, 129, 145, 4, 129, 129, 0, 0, 0, 0, 0, 0, 0, 0, 0, 0, 0, 0, 0, 0, 0, 0, 0, 0, 0, 0, 0, 0, 0, 0, 0, 0, 0, 0, 0, 0, 0, 0, 0, 0, 0, 0, 0, 0, 0, 0, 0, 0, 0, 0, 0, 0, 0, 0, 0, 0, 0, 0, 0, 0, 0, 0, 0, 0, 0, 0, 0, 0, 0, 0, 0, 0, 0, 0, 0, 0, 0, 0, 0, 0, 0, 0, 0, 0, 0, 0, 0, 0, 0, 0, 0, 0, 0, 0, 0, 0, 0, 0, 0, 0, 0, 0, 0, 0, 0, 0, 0, 0, 0, 0, 0, 0, 0, 0, 0, 0, 0, 0, 0, 0, 0, 0, 0, 0, 0, 0, 0, 0, 0, 0, 0, 0, 0, 0, 0, 48, 3, 6, 1, 42, 2, 1, 255, 48, 3, 6, 1, 42]),
       (2, 1, [48, 129, 145, 4, 129, 129, 0, 0, 0, 0, 0, 0, 0, 0, 0, 0, 0, 0, 0, 0, 0, 0, 0, 0, 0, 0, 0, 0, 0, 0, 0, 0, 0, 0, 0, 0, 0, 0, 0, 0, 0, 0, 0, 0, 0, 0, 0, 0, 0, 0, 0, 0, 0, 0, 0, 0, 0, 0, 0, 0, 0, 0, 0, 0, 0, 0, 0, 0, 0, 0, 0, 0, 0, 0, 0, 0, 0, 0, 0, 0, 0, 0, 0, 0, 0, 0, 0, 0, 0, 0, 0, 0, 0, 0, 0, 0, 0, 0, 0, 0, 0, 0, 0, 0, 0, 0, 0, 0, 0, 0, 0, 0, 0, 0, 0, 0, 0, 0, 0, 0, 0, 0, 0, 0, 0, 0, 0, 0, 0, 0, 0, 0, 0, 0, 0, 48, 3, 6, 1, 42, 2, 1, 255, 48, 3, 6, 1, 42])] },
   { name := ['P', 'D', 'S', 'N', 'a', 'm', 'e'], defs := [Rfc2459.PDSName, Rfc3280.PDSName, Rfc5280.PDSName] },
   { name := ['P', 'D', 'S', 'P', 'a', 'r', 'a', 'm', 'e', 't', 'e', 'r'], defs := [Rfc2459.PDSParameter, Rfc3280.PDSParameter, Rfc5280.PDSParameter] },
   { name := ['P', 'D', 'U'], defs := [Rfc1905.PDU] },
   { name := ['P', 'D', 'U', 's'], defs := [Rfc1905.PDUs] },
   { name := ['P', 'F', 'X'], defs := [Rfc7292.PFX] },
   { name := ['P', 'I', 'N', 'P', 'o', 'l', 'i', 'c', 'y'], defs := [Rfc6031.PINPolicy] },
   { name := ['P', 'I', 'N', 'U', 's', 'a', 'g', 'e', 'M', 'o', 'd', 'e'], defs := [Rfc6031.PINUsageMode] },
   { name := ['P', 'K', 'C', 'S', '1', '2', 'A', 't', 't', 'r', 'i', 'b', 'u', 't', 'e'], defs := [Rfc5652.Attribute] },
   { name := ['P', 'K', 'C', 'S', '8', 'S', 'h', 'r', 'o', 'u', 'd', 'e', 'd', 'K', 'e', 'y', 'B', 'a', 'g'], defs := [Rfc5958.EncryptedPrivateKeyInfo] },
   { name := ['P', 'K', 'C', 'S', '9', 'S', 't', 'r', 'i', 'n', 'g'], defs := [Rfc2985.PKCS9String] },
   { name := ['P', 'K', 'I', 'A', 'r', 'c', 'h', 'i', 'v', 'e', 'O', 'p', 't', 'i', 'o', 'n', 's'], defs := [Rfc2511.PKIArchiveOptions, Rfc4211.PKIArchiveOptions],
     apart := [(1, 0, [160, 24, 160, 22, 2, 1, 255, 49, 7, 164, 5, 6, 1, 42, 5, 0, 48, 8, 6, 1, 42, 48, 3, 6, 1, 42])] },
   { name := ['P', 'K', 'I', 'B', 'o', 'd', 'y'], defs := [Rfc4210.PKIBody] },
   { name := ['P', 'K', 'I', 'C', 'o', 'n', 'f', 'i', 'r', 'm', 'C', 'o', 'n', 't', 'e', 'n', 't'], defs := [Rfc4210.PKIConfirmContent] },
   { name := ['P', 'K', 'I', 'D', 'a', 't', 'a'], defs := [Rfc6402.PKIData] },
   { name := ['P', 'K', 'I', 'F', 'a', 'i', 'l', 'u', 'r', 'e', 'I', 'n', 'f', 'o'], defs := [Rfc3161.PKIFailureInfo, Rfc4210.PKIFailureInfo] },
   { name := ['P', 'K', 'I', 'F', 'r', 'e', 'e', 'T', 'e', 'x', 't'], defs := [Rfc4210.PKIFreeText] },
   { name := ['P', 'K', 'I', 'H', 'e', 'a', 'd', 'e', 'r'], defs := [Rfc4210.PKIHeader] },
   { name := ['P', 'K', 'I', 'M', 'e', 's', 's', 'a', 'g', 'e'], defs := [Rfc4210.PKIMessage] },
   { name := ['P', 'K', 'I', 'M', 'e', 's', 's', 'a', 'g', 'e', 's'], defs := [Rfc4210.PKIMessages] }]

def block20 : List Group :=
  [{ name := ['P', 'K', 'I', 'P', 'r', 'o', 't', 'e', 'c', 't', 'i', 'o', 'n'], defs := [Rfc4210.PKIProtection] },
   { name := ['P', 'K', 'I', 'P', 'u', 'b', 'l', 'i', 'c', 'a', 't', 'i', 'o', 'n', 'I', 'n', 'f', 'o'], defs := [Rfc2511.PKIPublicationInfo, Rfc4211.PKIPublicationInfo],
     apart := [(0, 1, [48, 12, 2, 1, 255, 48, 7, 48, 5, 2, 1, 0, 4, 0]),
       (1, 0, [48, 12, 2, 1, 255, 48, 7, 48, 5, 2, 1, 255, 134, 0])] },
   { name := ['P', 'K', 'I', 'R', 'e', 's', 'p', 'o', 'n', 's', 'e'], defs := [Rfc6402.PKIResponse] },
   { name := ['P', 'K', 'I', 'S', 't', 'a', 't', 'u', 's'], defs := [Rfc3161.PKIStatus, Rfc4210.PKIStatus] },
   { name := ['P', 'K', 'I', 'S', 't', 'a', 't', 'u', 's', 'I', 'n', 'f', 'o'], defs := [Rfc3161.PKIStatusInfo, Rfc4210.PKIStatusInfo] },
   { name := ['P', 'K', 'M', 'A', 'C', 'V', 'a', 'l', 'u', 'e'], defs := [Rfc2511.PKMACValue, Rfc4211.PKMACValue] },
   { name := ['P', 'O', 'P', 'O', 'D', 'e', 'c', 'K', 'e', 'y', 'C', 'h', 'a', 'l', 'l', 'C', 'o', 'n', 't', 'e', 'n', 't'], defs := [Rfc4210.POPODecKeyChallContent] },
   { name := ['P', 'O', 'P', 'O', 'D', 'e', 'c', 'K', 'e', 'y', 'R', 'e', 's', 'p', 'C', 'o', 'n', 't', 'e', 'n', 't'], defs := [Rfc4210.POPODecKeyRespContent] },
   { name := ['P', 'O', 'P', 'O', 'P', 'r', 'i', 'v', 'K', 'e', 'y'], defs := [Rfc2511.POPOPrivKey, Rfc4211.POPOPrivKey],
     apart := [(1, 0, [163, 8, 48, 3, 6, 1, 42, 3, 1, 0])] },
   { name := ['P', 'O', 'P', 'O', 'S', 'i', 'g', 'n', 'i', 'n', 'g', 'K', 'e', 'y'], defs := [Rfc2511.POPOSigningKey, Rfc4211.POPOSigningKey],
     apart := [(0, 1, [48, 22, 160, 12, 128, 0, 48, 8, 48, 3, 6, 1, 42, 3, 1, 0, 48, 3, 6, 1, 42, 3, 1, 0]),
       (1, 0, [48, 24, 160, 14, 160, 2, 129, 0, 48, 8, 48, 3, 6, 1, 42, 3, 1, 0, 48, 3, 6, 1, 42, 3, 1, 0])] },
   { name := ['P', 'O', 'P', 'O', 'S', 'i', 'g', 'n', 'i', 'n', 'g', 'K', 'e', 'y', 'I', 'n', 'p', 'u', 't'], defs := [Rfc2511.POPOSigningKeyInput, Rfc4211.POPOSigningKeyInput],
     apart := [(0, 1, [48, 12, 128, 0, 48, 8, 48, 3, 6, 1, 42, 3, 1, 0]),
       (1, 0, [48, 14, 160, 2, 130, 0, 48, 8, 48, 3, 6, 1, 42, 3, 1, 0])] },
   { name := ['P', 'S', 'K', 'C', 'A', 'l', 'g', 'o', 'r', 'i', 't', 'h', 'm', 'P', 'a', 'r', 'a', 'm', 'e', 't', 'e', 'r', 's'], defs := [Rfc6031.PSKCAlgorithmParameters] },
   { name := ['P', 'S', 'K', 'C', 'K', 'e', 'y', 'U', 's', 'a', 'g', 'e'], defs := [Rfc6031.PSKCKeyUsage] },
   { name := ['P', 'S', 'K', 'C', 'K', 'e', 'y', 'U', 's', 'a', 'g', 'e', 's'], defs := [Rfc6031.PSKCKeyUsages] },
   { name := ['P', 'S', 'o', 'u', 'r', 'c', 'e', 'A', 'l', 'g', 'o', 'r', 'i', 't', 'h', 'm'], defs := [Rfc5280.AlgorithmIdentifier] },
   { name := ['P', 'a', 'r', 't', 'i', 'a', 'l', 'A', 't', 't', 'r', 'i', 'b', 'u', 't', 'e', 'L', 'i', 's', 't'], defs := [Rfc2251.PartialAttributeList] },
   { name := ['P', 'a', 'r', 't', 'i', 'a', 'l', 'l', 'y', 'S', 'i', 'g', 'n', 'e', 'd', 'C', 'e', 'r', 't', 'i', 'f', 'i', 'c', 'a', 't', 'e', 'H', 'a', 's', 'h'], defs := [Rfc5636.PartiallySignedCertificateHash] },
   { name := ['P', 'a', 's', 's', 'w', 'o', 'r', 'd', 'R', 'e', 'c', 'i', 'p', 'i', 'e', 'n', 't', 'I', 'n', 'f', 'o'], defs := [Rfc3852.PasswordRecipientInfo, Rfc5652.PasswordRecipientInfo] },
   { name := ['P', 'a', 't', 'h', 'L', 'e', 'n', 'C', 'o', 'n', 's', 't', 'r', 'a', 'i', 'n', 't'], defs := [Rfc3125.PathLenConstraint] },
   { name := ['P', 'd', 'u', 's'], defs := [Rfc1157.Pdus] },
   { name := ['P', 'e', 'n', 'd', 'I', 'n', 'f', 'o'], defs := [Rfc6402.PendInfo] },
   { name := ['P', 'e', 'n', 't', 'a', 'n', 'o', 'm', 'i', 'a', 'l'], defs := [Rfc3279.Pentanomial] },
   { name := ['P', 'e', 'r', 'm', 'a', 'n', 'e', 'n', 't', 'I', 'd', 'e', 'n', 't', 'i', 'f', 'i', 'e', 'r'], defs := [Rfc4043.PermanentIdentifier] },
   { name := ['P', 'e', 'r', 's', 'o', 'n', 'a', 'l', 'N', 'a', 'm', 'e'], defs := [Rfc2459.PersonalName, Rfc3280.PersonalName, Rfc5280.PersonalName],
     apart := [(0, 1, [49, 5, 160, 3, 19, 1, 65]),
       (0, 2, [49, 5, 160, 3, 19, 1, 65]),
       (1, 0, [49, 3, 128, 1, 64]),
       (2, 0, [49, 3, 128, 1, 64])] },
   { name := ['P', 'h', 'y', 's', 'i', 'c', 'a', 'l', 'D', 'e', 'l', 'i', 'v', 'e', 'r', 'y', 'C', 'o', 'u', 'n', 't', 'r', 'y', 'N', 'a', 'm', 'e'], defs := [Rfc2459.PhysicalDeliveryCountryName, Rfc3280.PhysicalDeliveryCountryName, Rfc5280.PhysicalDeliveryCountryName] },
   { name := ['P', 'h', 'y', 's', 'i', 'c', 'a', 'l', 'D', 'e', 'l', 'i', 'v', 'e', 'r', 'y', 'O', 'f', 'f', 'i', 'c', 'e', 'N', 'a', 'm', 'e'], defs := [Rfc2459.PDSParameter, Rfc3280.PDSParameter, Rfc5280.PDSParameter] },
   { name := ['P', 'h', 'y', 's', 'i', 'c', 'a', 'l', 'D', 'e', 'l', 'i', 'v', 'e', 'r', 'y', 'O', 'f', 'f', 'i', 'c', 'e', 'N', 'u', 'm', 'b', 'e', 'r'], defs := [Rfc2459.PDSParameter, Rfc3280.PDSParameter, Rfc5280.PDSParameter] },
   { name := ['P', 'h', 'y', 's', 'i', 'c', 'a', 'l', 'D', 'e', 'l', 'i', 'v', 'e', 'r', 'y', 'O', 'r', 'g', 'a', 'n', 'i', 'z', 'a', 't', 'i', 'o', 'n', 'N', 'a', 'm', 'e'], defs := [Rfc2459.PDSParameter, Rfc3280.PDSParameter, Rfc5280.PDSParameter] },
   { name := ['P', 'h', 'y', 's', 'i', 'c', 'a', 'l', 'D', 'e', 'l', 'i', 'v', 'e', 'r', 'y', 'P', 'e', 'r', 's', 'o', 'n', 'a', 'l', 'N', 'a', 'm', 'e'], defs := [Rfc2459.PDSParameter, Rfc3280.PDSParameter, Rfc5280.PDSParameter] },
   { name := ['P', 'k', 'c', 's', '9', 'e', 'm', 'a', 'i', 'l'], defs := [Rfc2459.Pkcs9email] },
   { name := ['P', 'k', 'c', 's', '_', '1', '2', 'P', 'b', 'e', 'P', 'a', 'r', 'a', 'm', 's'], defs := [Rfc7292.Pkcs_12PbeParams] },
   { name := ['P', 'k', 'i', 'P', 'a', 't', 'h'], defs := [Rfc7906.PkiPath] }]

def block21 : List Group :=
  [{ name := ['P', 'l', 'a', 'c', 'e', 'O', 'f', 'B', 'i', 'r', 't', 'h'], defs := [Rfc5280.DirectoryString] },
   { name := ['P', 'l', 'a', 'i', 'n', 't', 'e', 'x', 't', 'S', 'y', 'm', 'm', 'e', 't', 'r', 'i', 'c', 'K', 'e', 'y'], defs := [Rfc5934.PlaintextSymmetricKey] },
   { name := ['P', 'o', 'l', 'i', 'c', 'y', 'C', 'o', 'n', 's', 't', 'r', 'a', 'i', 'n', 't', 's'], defs := [Rfc2459.PolicyConstraints, Rfc3125.PolicyConstraints, Rfc3280.PolicyConstraints, Rfc5280.PolicyConstraints],
     apart := [(1, 0, [48, 5, 160, 3, 2, 1, 64]),
       (1, 2, [48, 5, 160, 3, 2, 1, 64]),
       (1, 3, [48, 5, 160, 3, 2, 1, 64]),
       (2, 0, [48, 3, 128, 1, 64]),
       (2, 1, [48, 3, 128, 1, 64]),
       (3, 0, [48, 3, 128, 1, 64]),
       (3, 1, [48, 3, 128, 1, 64])] },
   { name := ['P', 'o', 'l', 'i', 'c', 'y', 'I', 'n', 'f', 'o', 'r', 'm', 'a', 't', 'i', 'o', 'n'], defs := [Rfc2459.PolicyInformation, Rfc5280.PolicyInformation, Rfc3280.PolicyInformation, Rfc4476.PolicyInformation],
     apart := [(1, 0, [48, 12, 6, 1, 42, 48, 7, 48, 5, 6, 1, 42, 48, 0]),
       (2, 0, [48, 12, 6, 1, 42, 48, 7, 48, 5, 6, 1, 42, 48, 0]),
       (3, 0, [48, 12, 6, 1, 42, 48, 7, 48, 5, 6, 1, 42, 48, 0])] },
   { name := ['P', 'o', 'l', 'i', 'c', 'y', 'I', 's', 's', 'u', 'e', 'r', 'N', 'a', 'm', 'e'], defs := [Rfc5280.GeneralNames] },
   { name := ['P', 'o', 'l', 'i', 'c', 'y', 'M', 'a', 'p', 'p', 'i', 'n', 'g'], defs := [Rfc2459.PolicyMapping] },
   { name := ['P', 'o', 'l', 'i', 'c', 'y', 'M', 'a', 'p', 'p', 'i', 'n', 'g', 's'], defs := [Rfc2459.PolicyMappings, Rfc3280.PolicyMappings, Rfc5280.PolicyMappings] },
   { name := ['P', 'o', 'l', 'i', 'c', 'y', 'Q', 'u', 'a', 'l', 'i', 'f', 'i', 'e', 'r', 'I', 'd'], defs := [Rfc2459.PolicyQualifierId, Rfc3280.PolicyQualifierId, Rfc5280.PolicyQualifierId],
     apart := [(1, 0, [6, 1, 43]),
       (2, 0, [6, 1, 43])] },
   { name := ['P', 'o', 'l', 'i', 'c', 'y', 'Q', 'u', 'a', 'l', 'i', 'f', 'i', 'e', 'r', 'I', 'n', 'f', 'o'], defs := [Rfc2459.PolicyQualifierInfo, Rfc3280.PolicyQualifierInfo, Rfc5280.PolicyQualifierInfo],
     apart := [(1, 0, [48, 5, 6, 1, 42, 5, 0]),
       (2, 0, [48, 5, 6, 1, 42, 5, 0])] },
   { name := ['P', 'o', 'l', 'l', 'R', 'e', 'p', 'C', 'o', 'n', 't', 'e', 'n', 't'], defs := [Rfc4210.PollRepContent] },
   { name := ['P', 'o', 'l', 'l', 'R', 'e', 'p', 'C', 'o', 'n', 't', 'e', 'n', 't', '.', 'C', 'e', 'r', 't', 'R', 'e', 'q'], defs := [Rfc4210.PollRepContent_CertReq] },
   { name := ['P', 'o', 'l', 'l', 'R', 'e', 'q', 'C', 'o', 'n', 't', 'e', 'n', 't'], defs := [Rfc4210.PollReqContent] },
   { name := ['P', 'o', 'l', 'l', 'R', 'e', 'q', 'C', 'o', 'n', 't', 'e', 'n', 't', '.', 'C', 'e', 'r', 't', 'R', 'e', 'q'], defs := [Rfc4210.PollReqContent_CertReq] },
   { name := ['P', 'o', 'p', 'L', 'i', 'n', 'k', 'W', 'i', 't', 'n', 'e', 's', 's', 'V', '2'], defs := [Rfc6402.PopLinkWitnessV2] },
   { name := ['P', 'o', 's', 't', 'O', 'f', 'f', 'i', 'c', 'e', 'B', 'o', 'x', 'A', 'd', 'd', 'r', 'e', 's', 's'], defs := [Rfc2459.PDSParameter, Rfc3280.PDSParameter, Rfc5280.PDSParameter] },
   { name := ['P', 'o', 's', 't', 'a', 'l', 'A', 'd', 'd', 'r', 'e', 's', 's'], defs := [Rfc5126.PostalAddress] },
   { name := ['P', 'o', 's', 't', 'a', 'l', 'C', 'o', 'd', 'e'], defs := [Rfc2459.PostalCode, Rfc3280.PostalCode, Rfc5280.PostalCode] },
   { name := ['P', 'o', 's', 't', 'e', 'R', 'e', 's', 't', 'a', 'n', 't', 'e', 'A', 'd', 'd', 'r', 'e', 's', 's'], defs := [Rfc2459.PDSParameter, Rfc3280.PDSParameter, Rfc5280.PDSParameter] },
   { name := ['P', 'r', 'e', 'S', 'h', 'a', 'r', 'e', 'd', 'K', 'e', 'y', 'I', 'd', 'e', 'n', 't', 'i', 'f', 'i', 'e', 'r'], defs := [Rfc8696.PreSharedKeyIdentifier] },
   { name := ['P', 'r', 'e', 'd', 'e', 'f', 'i', 'n', 'e', 'd', 'B', 'i', 'o', 'm', 'e', 't', 'r', 'i', 'c', 'T', 'y', 'p', 'e'], defs := [Rfc3739.PredefinedBiometricType] },
   { name := ['P', 'r', 'e', 'f', 'e', 'r', 'r', 'e', 'd', 'O', 'r', 'L', 'e', 'g', 'a', 'c', 'y', 'P', 'a', 'c', 'k', 'a', 'g', 'e', 'I', 'd', 'e', 'n', 't', 'i', 'f', 'i', 'e', 'r'], defs := [Rfc4108.PreferredOrLegacyPackageIdentifier] },
   { name := ['P', 'r', 'e', 'f', 'e', 'r', 'r', 'e', 'd', 'O', 'r', 'L', 'e', 'g', 'a', 'c', 'y', 'S', 't', 'a', 'l', 'e', 'P', 'a', 'c', 'k', 'a', 'g', 'e', 'I', 'd', 'e', 'n', 't', 'i', 'f', 'i', 'e', 'r'], defs := [Rfc4108.PreferredOrLegacyStalePackageIdentifier] },
   { name := ['P', 'r', 'e', 'f', 'e', 'r', 'r', 'e', 'd', 'P', 'a', 'c', 'k', 'a', 'g', 'e', 'I', 'd', 'e', 'n', 't', 'i', 'f', 'i', 'e', 'r'], defs := [Rfc4108.PreferredPackageIdentifier] },
   { name := ['P', 'r', 'e', 'f', 'e', 'r', 'r', 'e', 'd', 'S', 'i', 'g', 'n', 'a', 't', 'u', 'r', 'e', 'A', 'l', 'g', 'o', 'r', 'i', 't', 'h', 'm'], defs := [Rfc6960.PreferredSignatureAlgorithm] },
   { name := ['P', 'r', 'e', 'f', 'e', 'r', 'r', 'e', 'd', 'S', 'i', 'g', 'n', 'a', 't', 'u', 'r', 'e', 'A', 'l', 'g', 'o', 'r', 'i', 't', 'h', 'm', 's'], defs := [Rfc6960.PreferredSignatureAlgorithms] },
   { name := ['P', 'r', 'e', 's', 'e', 'n', 't', 'a', 't', 'i', 'o', 'n', 'A', 'd', 'd', 'r', 'e', 's', 's'], defs := [Rfc2459.PresentationAddress, Rfc3280.PresentationAddress, Rfc5280.PresentationAddress],
     apart := [(0, 1, [48, 0]),
       (0, 2, [48, 0])] },
   { name := ['P', 'r', 'i', 'm', 'e', '_', 'p'], defs := [Rfc3279.Prime_p] },
   { name := ['P', 'r', 'i', 'v', 'a', 't', 'e', 'D', 'o', 'm', 'a', 'i', 'n', 'N', 'a', 'm', 'e'], defs := [Rfc2459.PrivateDomainName, Rfc3280.PrivateDomainName, Rfc5280.PrivateDomainName] },
   { name := ['P', 'r', 'i', 'v', 'a', 't', 'e', 'K', 'e', 'y'], defs := [Rfc5208.PrivateKey, Rfc5958.PrivateKey] },
   { name := ['P', 'r', 'i', 'v', 'a', 't', 'e', 'K', 'e', 'y', 'A', 'l', 'g', 'o', 'r', 'i', 't', 'h', 'm', 'I', 'd', 'e', 'n', 't', 'i', 'f', 'i', 'e', 'r'], defs := [Rfc5280.AlgorithmIdentifier] },
   { name := ['P', 'r', 'i', 'v', 'a', 't', 'e', 'K', 'e', 'y', 'A', 'l', 'g', 'o', 'r', 'i', 't', 'h', 'm', 's'], defs := [Rfc2459.AlgorithmIdentifier] },
   { name := ['P', 'r', 'i', 'v', 'a', 't', 'e', 'K', 'e', 'y', 'I', 'n', 'f', 'o'], defs := [Rfc4211.PrivateKeyInfo, Rfc5208.PrivateKeyInfo, Rfc5958.OneAsymmetricKey],
     apart := [(0, 1, [48, 19, 2, 1, 255, 48, 3, 6, 1, 42, 4, 0, 160, 7, 48, 5, 6, 1, 42, 49, 0]),
       (1, 0, [48, 18, 2, 1, 255, 48, 3, 6, 1, 42, 4, 0, 160, 6, 48, 4, 4, 0, 49, 0]),
       (1, 2, [48, 18, 2, 1, 255, 48, 3, 6, 1, 42, 4, 0, 160, 6, 48, 4, 4, 0, 49, 0]),
       (2, 0, [48, 13, 2, 1, 255, 48, 3, 6, 1, 42, 4, 0, 129, 1, 0]),
       (2, 1, [48, 13, 2, 1, 255, 48, 3, 6, 1, 42, 4, 0, 129, 1, 0])] }]

def block22 : List Group :=
  [{ name := ['P', 'r', 'i', 'v', 'a', 't', 'e', 'K', 'e', 'y', 'U', 's', 'a', 'g', 'e', 'P', 'e', 'r', 'i', 'o', 'd'], defs := [Rfc2459.PrivateKeyUsagePeriod, Rfc3280.PrivateKeyUsagePeriod, Rfc5280.PrivateKeyUsagePeriod] },
   { name := ['P', 'r', 'o', 'o', 'f', 'O', 'f', 'P', 'o', 's', 's', 'e', 's', 's', 'i', 'o', 'n'], defs := [Rfc2511.ProofOfPossession, Rfc4211.ProofOfPossession],
     apart := [(0, 1, [161, 22, 160, 12, 128, 0, 48, 8, 48, 3, 6, 1, 42, 3, 1, 0, 48, 3, 6, 1, 42, 3, 1, 0]),
       (1, 0, [162, 10, 163, 8, 48, 3, 6, 1, 42, 3, 1, 0])] },
   { name := ['P', 'r', 'o', 't', 'e', 'c', 't', 'e', 'd', 'P', 'a', 'r', 't'], defs := [Rfc4210.ProtectedPart] },
   { name := ['P', 'r', 'o', 't', 'o', 'c', 'o', 'l', 'E', 'n', 'c', 'r', 'K', 'e', 'y'], defs := [Rfc2459.SubjectPublicKeyInfo, Rfc3280.SubjectPublicKeyInfo] },
   { name := ['P', 'r', 'o', 'x', 'y', 'C', 'e', 'r', 't', 'I', 'n', 'f', 'o', 'E', 'x', 't', 'e', 'n', 's', 'i', 'o', 'n'], defs := [Rfc3820.ProxyCertInfoExtension] },
   { name := ['P', 'r', 'o', 'x', 'y', 'C', 'e', 'r', 't', 'P', 'a', 't', 'h', 'L', 'e', 'n', 'g', 't', 'h', 'C', 'o', 'n', 's', 't', 'r', 'a', 'i', 'n', 't'], defs := [Rfc3820.ProxyCertPathLengthConstraint] },
   { name := ['P', 'r', 'o', 'x', 'y', 'I', 'n', 'f', 'o'], defs := [Rfc3281.ProxyInfo, Rfc5755.ProxyInfo] },
   { name := ['P', 'r', 'o', 'x', 'y', 'P', 'o', 'l', 'i', 'c', 'y'], defs := [Rfc3820.ProxyPolicy] },
   { name := ['P', 'u', 'b', 'l', 'i', 'c', 'K', 'e', 'y'], defs := [Rfc5958.PublicKey] },
   { name := ['P', 'u', 'b', 'l', 'i', 's', 'h', 'T', 'r', 'u', 's', 't', 'A', 'n', 'c', 'h', 'o', 'r', 's'], defs := [Rfc6402.PublishTrustAnchors] },
   { name := ['Q', 'C', 'S', 't', 'a', 't', 'e', 'm', 'e', 'n', 't'], defs := [Rfc3739.QCStatement] },
   { name := ['Q', 'C', 'S', 't', 'a', 't', 'e', 'm', 'e', 'n', 't', 's'], defs := [Rfc3739.QCStatements] },
   { name := ['R', 'C', '2', 'C', 'B', 'C', 'P', 'a', 'r', 'a', 'm', 'e', 't', 'e', 'r'], defs := [Rfc8018.RC2_CBC_Parameter] },
   { name := ['R', 'C', '2', 'P', 'a', 'r', 'a', 'm', 'e', 't', 'e', 'r', 'V', 'e', 'r', 's', 'i', 'o', 'n'], defs := [Rfc3370.RC2ParameterVersion] },
   { name := ['R', 'C', '2', '_', 'C', 'B', 'C', '_', 'P', 'a', 'r', 'a', 'm', 'e', 't', 'e', 'r'], defs := [Rfc8018.RC2_CBC_Parameter] },
   { name := ['R', 'C', '2', 'w', 'r', 'a', 'p', 'P', 'a', 'r', 'a', 'm', 'e', 't', 'e', 'r'], defs := [Rfc3370.RC2ParameterVersion] },
   { name := ['R', 'C', '5', '_', 'C', 'B', 'C', '_', 'P', 'a', 'r', 'a', 'm', 'e', 't', 'e', 'r', 's'], defs := [Rfc8018.RC5_CBC_Parameters] },
   { name := ['R', 'D', 'N', 'S', 'e', 'q', 'u', 'e', 'n', 'c', 'e'], defs := [Rfc2459.RDNSequence, Rfc5280.RDNSequence, Rfc3280.RDNSequence] },
   { name := ['R', 'O', 'A', 'I', 'P', 'A', 'd', 'd', 'r', 'e', 's', 's'], defs := [Rfc6482.ROAIPAddress] },
   { name := ['R', 'O', 'A', 'I', 'P', 'A', 'd', 'd', 'r', 'e', 's', 's', 'F', 'a', 'm', 'i', 'l', 'y'], defs := [Rfc6482.ROAIPAddressFamily] },
   { name := ['R', 'S', 'A', 'E', 'S', '_', 'O', 'A', 'E', 'P', '_', 'p', 'a', 'r', 'a', 'm', 's'], defs := [Rfc2437.RSAES_OAEP_params, Rfc4055.RSAES_OAEP_params],
     apart := [(0, 1, [48, 15, 160, 3, 6, 1, 42, 161, 3, 6, 1, 42, 162, 3, 6, 1, 43]),
       (1, 0, [48, 0])] },
   { name := ['R', 'S', 'A', 'K', 'e', 'y', 'C', 'a', 'p', 'a', 'b', 'i', 'l', 'i', 't', 'i', 'e', 's'], defs := [Rfc6664.RSAKeyCapabilities] },
   { name := ['R', 'S', 'A', 'K', 'e', 'y', 'S', 'i', 'z', 'e'], defs := [Rfc6664.RSAKeySize] },
   { name := ['R', 'S', 'A', 'P', 'r', 'i', 'v', 'a', 't', 'e', 'K', 'e', 'y'], defs := [Rfc2437.RSAPrivateKey, Rfc3447.RSAPrivateKey],
     apart := [(1, 0, [48, 40, 2, 1, 255, 2, 1, 255, 2, 1, 255, 2, 1, 255, 2, 1, 255, 2, 1, 255, 2, 1, 255, 2, 1, 255, 2, 1, 255, 48, 11, 48, 9, 2, 1, 255, 2, 1, 255, 2, 1, 255])] },
   { name := ['R', 'S', 'A', 'P', 'u', 'b', 'l', 'i', 'c', 'K', 'e', 'y'], defs := [Rfc2437.RSAPublicKey, Rfc3279.RSAPublicKey, Rfc4055.RSAPublicKey] },
   { name := ['R', 'S', 'A', 'S', 'S', 'A', '_', 'P', 'S', 'S', '_', 'p', 'a', 'r', 'a', 'm', 's'], defs := [Rfc4055.RSASSA_PSS_params] },
   { name := ['R', 'a', 'n', 'd', 'o', 'm', 'N', 'o', 'n', 'c', 'e'], defs := [Rfc2985.RandomNonce] },
   { name := ['R', 'e', 'a', 's', 'o', 'n', 'F', 'l', 'a', 'g', 's'], defs := [Rfc2459.ReasonFlags, Rfc3280.ReasonFlags, Rfc5280.ReasonFlags] },
   { name := ['R', 'e', 'c', 'e', 'i', 'p', 't'], defs := [Rfc2634.Receipt] },
   { name := ['R', 'e', 'c', 'e', 'i', 'p', 't', 'R', 'e', 'q', 'u', 'e', 's', 't'], defs := [Rfc2634.ReceiptRequest] },
   { name := ['R', 'e', 'c', 'e', 'i', 'p', 't', 's', 'F', 'r', 'o', 'm'], defs := [Rfc2634.ReceiptsFrom] },
   { name := ['R', 'e', 'c', 'i', 'p', 'i', 'e', 'n', 't', 'E', 'n', 'c', 'r', 'y', 'p', 't', 'e', 'd', 'K', 'e', 'y'], defs := [Rfc3852.RecipientEncryptedKey, Rfc5652.RecipientEncryptedKey] }]

def block23 : List Group :=
  [{ name := ['R', 'e', 'c', 'i', 'p', 'i', 'e', 'n', 't', 'E', 'n', 'c', 'r', 'y', 'p', 't', 'e', 'd', 'K', 'e', 'y', 's'], defs := [Rfc3852.RecipientEncryptedKeys, Rfc5652.RecipientEncryptedKeys] },
   { name := ['R', 'e', 'c', 'i', 'p', 'i', 'e', 'n', 't', 'I', 'd', 'e', 'n', 't', 'i', 'f', 'i', 'e', 'r'], defs := [Rfc3852.RecipientIdentifier, Rfc5652.RecipientIdentifier] },
   { name := ['R', 'e', 'c', 'i', 'p', 'i', 'e', 'n', 't', 'I', 'n', 'f', 'o'], defs := [Rfc2315.RecipientInfo, Rfc3852.RecipientInfo, Rfc5652.RecipientInfo],
     apart := [(1, 0, [164, 5, 6, 1, 43, 5, 0]),
       (2, 0, [164, 5, 6, 1, 43, 5, 0])] },
   { name := ['R', 'e', 'c', 'i', 'p', 'i', 'e', 'n', 't', 'I', 'n', 'f', 'o', 's'], defs := [Rfc2315.RecipientInfos, Rfc3852.RecipientInfos, Rfc5652.RecipientInfos],
     apart := [(1, 0, [49, 7, 164, 5, 6, 1, 42, 48, 0]),
       (2, 0, [49, 7, 164, 5, 6, 1, 42, 48, 0])] },
   { name := ['R', 'e', 'c', 'i', 'p', 'i', 'e', 'n', 't', 'K', 'e', 'y', 'I', 'd', 'e', 'n', 't', 'i', 'f', 'i', 'e', 'r'], defs := [Rfc3852.RecipientKeyIdentifier, Rfc5652.RecipientKeyIdentifier] },
   { name := ['R', 'e', 'f', 'e', 'r', 'r', 'a', 'l'], defs := [Rfc2251.Referral] },
   { name := ['R', 'e', 'g', 'T', 'o', 'k', 'e', 'n'], defs := [Rfc2511.RegToken, Rfc4211.RegToken] },
   { name := ['R', 'e', 'g', 'i', 's', 't', 'e', 'r'], defs := [Rfc7906.Register] },
   { name := ['R', 'e', 'g', 'i', 's', 't', 'e', 'r', 'I', 'D'], defs := [Rfc7906.RegisterID] },
   { name := ['R', 'e', 'g', 'i', 's', 't', 'e', 'r', 'R', 'a', 'n', 'g', 'e'], defs := [Rfc7906.RegisterRange] },
   { name := ['R', 'e', 'l', 'a', 't', 'i', 'v', 'e', 'D', 'i', 's', 't', 'i', 'n', 'g', 'u', 'i', 's', 'h', 'e', 'd', 'N', 'a', 'm', 'e'], defs := [Rfc2459.RelativeDistinguishedName, Rfc5280.RelativeDistinguishedName, Rfc3280.RelativeDistinguishedName] },
   { name := ['R', 'e', 'l', 'a', 't', 'i', 'v', 'e', 'L', 'D', 'A', 'P', 'D', 'N'], defs := [Rfc2251.LDAPString] },
   { name := ['R', 'e', 'p', 'o', 'r', 't', 'P', 'D', 'U'], defs := [Rfc1905.ReportPDU] },
   { name := ['R', 'e', 'q', 'u', 'e', 's', 't'], defs := [Rfc2560.Request, Rfc6960.Request] },
   { name := ['R', 'e', 'q', 'u', 'e', 's', 't', 'I', 'D'], defs := [Rfc1157.RequestID] },
   { name := ['R', 'e', 's', 'p', 'o', 'n', 'd', 'e', 'r', 'I', 'D'], defs := [Rfc2560.ResponderID, Rfc6960.ResponderID] },
   { name := ['R', 'e', 's', 'p', 'o', 'n', 's', 'e', 'B', 'o', 'd', 'y'], defs := [Rfc6402.PKIResponse] },
   { name := ['R', 'e', 's', 'p', 'o', 'n', 's', 'e', 'B', 'y', 't', 'e', 's'], defs := [Rfc2560.ResponseBytes] },
   { name := ['R', 'e', 's', 'p', 'o', 'n', 's', 'e', 'D', 'a', 't', 'a'], defs := [Rfc2560.ResponseData, Rfc6960.ResponseData] },
   { name := ['R', 'e', 's', 'p', 'o', 'n', 's', 'e', 'F', 'o', 'r', 'm', 'a', 't'], defs := [Rfc6031.ResponseFormat] },
   { name := ['R', 'e', 's', 'p', 'o', 'n', 's', 'e', 'P', 'D', 'U'], defs := [Rfc1905.ResponsePDU] },
   { name := ['R', 'e', 'v', 'A', 'n', 'n', 'C', 'o', 'n', 't', 'e', 'n', 't'], defs := [Rfc4210.RevAnnContent] },
   { name := ['R', 'e', 'v', 'D', 'e', 't', 'a', 'i', 'l', 's'], defs := [Rfc4210.RevDetails] },
   { name := ['R', 'e', 'v', 'R', 'e', 'p', 'C', 'o', 'n', 't', 'e', 'n', 't'], defs := [Rfc4210.RevRepContent] },
   { name := ['R', 'e', 'v', 'R', 'e', 'q'], defs := [Rfc3125.RevReq] },
   { name := ['R', 'e', 'v', 'R', 'e', 'q', 'C', 'o', 'n', 't', 'e', 'n', 't'], defs := [Rfc4210.RevReqContent] },
   { name := ['R', 'e', 'v', 'o', 'c', 'a', 't', 'i', 'o', 'n', 'I', 'n', 'f', 'o', 'C', 'h', 'o', 'i', 'c', 'e'], defs := [Rfc3852.RevocationInfoChoice, Rfc5652.RevocationInfoChoice] },
   { name := ['R', 'e', 'v', 'o', 'c', 'a', 't', 'i', 'o', 'n', 'I', 'n', 'f', 'o', 'C', 'h', 'o', 'i', 'c', 'e', 's'], defs := [Rfc3852.RevocationInfoChoices, Rfc5652.RevocationInfoChoices] },
   { name := ['R', 'e', 'v', 'o', 'c', 'a', 't', 'i', 'o', 'n', 'V', 'a', 'l', 'u', 'e', 's'], defs := [Rfc5126.RevocationValues] },
   { name := ['R', 'e', 'v', 'o', 'k', 'e', 'R', 'e', 'q', 'u', 'e', 's', 't'], defs := [Rfc6402.RevokeRequest] },
   { name := ['R', 'e', 'v', 'o', 'k', 'e', 'd', 'C', 'e', 'r', 't', 'i', 'f', 'i', 'c', 'a', 't', 'e'], defs := [Rfc2459.RevokedCertificate] },
   { name := ['R', 'e', 'v', 'o', 'k', 'e', 'd', 'I', 'n', 'f', 'o'], defs := [Rfc2560.RevokedInfo] }]

def block24 : List Group :=
  [{ name := ['R', 'o', 'l', 'e', 'S', 'y', 'n', 't', 'a', 'x'], defs := [Rfc3281.RoleSyntax, Rfc5755.RoleSyntax] },
   { name := ['R', 'o', 'u', 't', 'e', 'O', 'r', 'i', 'g', 'i', 'n', 'A', 't', 't', 'e', 's', 't', 'a', 't', 'i', 'o', 'n'], defs := [Rfc6482.RouteOriginAttestation] },
   { name := ['R', 's', 'a', 'K', 'e', 'm', 'P', 'a', 'r', 'a', 'm', 'e', 't', 'e', 'r', 's'], defs := [Rfc5990.RsaKemParameters] },
   { name := ['R', 's', 'a', 'S', 's', 'a', '_', 'P', 's', 's', '_', 's', 'i', 'g', '_', 'c', 'a', 'p', 's'], defs := [Rfc6664.RsaSsa_Pss_sig_caps] },
   { name := ['S', 'C', 'V', 'P', 'C', 'e', 'r', 't', 'I', 'D'], defs := [Rfc5697.SCVPCertID] },
   { name := ['S', 'C', 'V', 'P', 'I', 's', 's', 'u', 'e', 'r', 'S', 'e', 'r', 'i', 'a', 'l'], defs := [Rfc5697.SCVPIssuerSerial] },
   { name := ['S', 'C', 'V', 'P', 'R', 'e', 'q', 'R', 'e', 's'], defs := [Rfc5940.SCVPReqRes] },
   { name := ['S', 'I', 'M'], defs := [Rfc4683.SIM] },
   { name := ['S', 'I', 'R', 'E', 'n', 't', 'i', 't', 'y', 'N', 'a', 'm', 'e'], defs := [Rfc7191.SIREntityName] },
   { name := ['S', 'I', 'R', 'E', 'n', 't', 'i', 't', 'y', 'N', 'a', 'm', 'e', 'T', 'y', 'p', 'e'], defs := [Rfc7191.SIREntityNameType] },
   { name := ['S', 'I', 'R', 'E', 'n', 't', 'i', 't', 'y', 'N', 'a', 'm', 'e', 'V', 'a', 'l', 'u', 'e'], defs := [Rfc7191.SIREntityNameValue] },
   { name := ['S', 'I', 'R', 'E', 'n', 't', 'i', 't', 'y', 'N', 'a', 'm', 'e', 's'], defs := [Rfc7191.SIREntityNames] },
   { name := ['S', 'K', 'D', 'A', 'l', 'g', 'R', 'e', 'q', 'u', 'e', 's', 't'], defs := [Rfc5275.SKDAlgRequest] },
   { name := ['S', 'K', 'D', 'F', 'a', 'i', 'l', 'I', 'n', 'f', 'o'], defs := [Rfc5275.SKDFailInfo] },
   { name := ['S', 'K', 'e', 'y', 'A', 't', 't', 'r', 'i', 'b', 'u', 't', 'e'], defs := [Rfc6031.SKeyAttribute] },
   { name := ['S', 'K', 'e', 'y', 'P', 'k', 'g', 'A', 't', 't', 'r', 'i', 'b', 'u', 't', 'e'], defs := [Rfc6031.SKeyPkgAttribute] },
   { name := ['S', 'M', 'I', 'M', 'E', 'C', 'a', 'p', 'a', 'b', 'i', 'l', 'i', 't', 'i', 'e', 's'], defs := [Rfc2985.SMIMECapabilities, Rfc5751.SMIMECapabilities] },
   { name := ['S', 'M', 'I', 'M', 'E', 'C', 'a', 'p', 'a', 'b', 'i', 'l', 'i', 't', 'i', 'e', 's', 'P', 'a', 'r', 'a', 'm', 'e', 't', 'e', 'r', 's', 'F', 'o', 'r', 'R', 'C', '2', 'C', 'B', 'C'], defs := [Rfc5751.SMIMECapabilitiesParametersForRC2CBC] },
   { name := ['S', 'M', 'I', 'M', 'E', 'C', 'a', 'p', 'a', 'b', 'i', 'l', 'i', 't', 'y'], defs := [Rfc5280.AlgorithmIdentifier, Rfc5751.SMIMECapability] },
   { name := ['S', 'M', 'I', 'M', 'E', 'E', 'n', 'c', 'r', 'y', 'p', 't', 'i', 'o', 'n', 'K', 'e', 'y', 'P', 'r', 'e', 'f', 'e', 'r', 'e', 'n', 'c', 'e'], defs := [Rfc5751.SMIMEEncryptionKeyPreference] },
   { name := ['S', 'N', 'M', 'P', 'v', '2', 'T', 'r', 'a', 'p', 'P', 'D', 'U'], defs := [Rfc1905.SNMPv2TrapPDU] },
   { name := ['S', 'N', 'M', 'P', 'v', '3', 'M', 'e', 's', 's', 'a', 'g', 'e'], defs := [Rfc3412.SNMPv3Message] },
   { name := ['S', 'P', 'U', 's', 'e', 'r', 'N', 'o', 't', 'i', 'c', 'e'], defs := [Rfc5126.SPUserNotice] },
   { name := ['S', 'P', 'u', 'r', 'i'], defs := [Rfc5126.SPuri] },
   { name := ['S', 'R', 'V', 'N', 'a', 'm', 'e'], defs := [Rfc4985.SRVName] },
   { name := ['S', 'S', 'I', 'D'], defs := [Rfc3770.SSID, Rfc4334.SSID],
     apart := [(1, 0, [4, 0])] },
   { name := ['S', 'S', 'I', 'D', 'L', 'i', 's', 't'], defs := [Rfc3770.SSIDList, Rfc4334.SSIDList],
     apart := [(1, 0, [48, 2, 4, 0])] },
   { name := ['S', 'a', 'f', 'e', 'B', 'a', 'g'], defs := [Rfc7292.SafeBag] },
   { name := ['S', 'a', 'f', 'e', 'C', 'o', 'n', 't', 'e', 'n', 't', 's'], defs := [Rfc7292.SafeContents] },
   { name := ['S', 'a', 's', 'l', 'C', 'r', 'e', 'd', 'e', 'n', 't', 'i', 'a', 'l', 's'], defs := [Rfc2251.SaslCredentials] },
   { name := ['S', 'c', 'o', 'p', 'e', 'd', 'P', 'D', 'U'], defs := [Rfc3412.ScopedPDU] },
   { name := ['S', 'c', 'o', 'p', 'e', 'd', 'P', 'd', 'u', 'D', 'a', 't', 'a'], defs := [Rfc3412.ScopedPduData] }]

def block25 : List Group :=
  [{ name := ['S', 'c', 'r', 'y', 'p', 't', '_', 'p', 'a', 'r', 'a', 'm', 's'], defs := [Rfc7914.Scrypt_params] },
   { name := ['S', 'e', 'a', 'r', 'c', 'h', 'R', 'e', 'q', 'u', 'e', 's', 't'], defs := [Rfc2251.SearchRequest] },
   { name := ['S', 'e', 'a', 'r', 'c', 'h', 'R', 'e', 's', 'u', 'l', 't', 'D', 'o', 'n', 'e'], defs := [Rfc2251.SearchResultDone] },
   { name := ['S', 'e', 'a', 'r', 'c', 'h', 'R', 'e', 's', 'u', 'l', 't', 'E', 'n', 't', 'r', 'y'], defs := [Rfc2251.SearchResultEntry] },
   { name := ['S', 'e', 'a', 'r', 'c', 'h', 'R', 'e', 's', 'u', 'l', 't', 'R', 'e', 'f', 'e', 'r', 'e', 'n', 'c', 'e'], defs := [Rfc2251.SearchResultReference] },
   { name := ['S', 'e', 'c', 'r', 'e', 't', 'B', 'a', 'g'], defs := [Rfc7292.SecretBag] },
   { name := ['S', 'e', 'c', 'u', 'r', 'e', 'H', 'e', 'a', 'd', 'e', 'r', 'F', 'i', 'e', 'l', 'd', 's'], defs := [Rfc7508.SecureHeaderFields] },
   { name := ['S', 'e', 'c', 'u', 'r', 'i', 't', 'y', 'A', 't', 't', 'r', 'i', 'b', 'u', 't', 'e'], defs := [Rfc7906.SecurityAttribute] },
   { name := ['S', 'e', 'c', 'u', 'r', 'i', 't', 'y', 'C', 'a', 't', 'e', 'g', 'o', 'r', 'i', 'e', 's'], defs := [Rfc2634.SecurityCategories] },
   { name := ['S', 'e', 'c', 'u', 'r', 'i', 't', 'y', 'C', 'a', 't', 'e', 'g', 'o', 'r', 'y'], defs := [Rfc2634.SecurityCategory, Rfc3281.SecurityCategory, Rfc5755.SecurityCategory] },
   { name := ['S', 'e', 'c', 'u', 'r', 'i', 't', 'y', 'C', 'a', 't', 'e', 'g', 'o', 'r', 'y', 'V', 'a', 'l', 'u', 'e', 's'], defs := [Rfc3114.SecurityCategoryValues] },
   { name := ['S', 'e', 'c', 'u', 'r', 'i', 't', 'y', 'C', 'l', 'a', 's', 's', 'i', 'f', 'i', 'c', 'a', 't', 'i', 'o', 'n'], defs := [Rfc2634.SecurityClassification] },
   { name := ['S', 'e', 'c', 'u', 'r', 'i', 't', 'y', 'P', 'o', 'l', 'i', 'c', 'y', 'I', 'd', 'e', 'n', 't', 'i', 'f', 'i', 'e', 'r'], defs := [Rfc2634.SecurityPolicyIdentifier] },
   { name := ['S', 'e', 'e', 'd', 'C', 'B', 'C', 'P', 'a', 'r', 'a', 'm', 'e', 't', 'e', 'r'], defs := [Rfc4010.SeedIV] },
   { name := ['S', 'e', 'e', 'd', 'I', 'V'], defs := [Rfc4010.SeedIV] },
   { name := ['S', 'e', 'e', 'd', 'S', 'M', 'i', 'm', 'e', 'C', 'a', 'p', 'a', 'b', 'i', 'l', 'i', 't', 'y'], defs := [Rfc4010.SeedSMimeCapability] },
   { name := ['S', 'e', 'g', 'm', 'e', 'n', 't', 'I', 'D'], defs := [Rfc7906.SegmentID] },
   { name := ['S', 'e', 'g', 'm', 'e', 'n', 't', 'N', 'u', 'm', 'b', 'e', 'r'], defs := [Rfc7906.SegmentNumber] },
   { name := ['S', 'e', 'g', 'm', 'e', 'n', 't', 'R', 'a', 'n', 'g', 'e'], defs := [Rfc7906.SegmentRange] },
   { name := ['S', 'e', 'l', 'e', 'c', 't', 'e', 'd', 'C', 'o', 'm', 'm', 'i', 't', 'm', 'e', 'n', 't', 'T', 'y', 'p', 'e', 's'], defs := [Rfc3125.SelectedCommitmentTypes] },
   { name := ['S', 'e', 'm', 'a', 'n', 't', 'i', 'c', 's', 'I', 'n', 'f', 'o', 'r', 'm', 'a', 't', 'i', 'o', 'n'], defs := [Rfc3739.SemanticsInformation] },
   { name := ['S', 'e', 'q', 'N', 'u', 'm', 'b', 'e', 'r'], defs := [Rfc5934.SeqNumber] },
   { name := ['S', 'e', 'q', 'u', 'e', 'n', 'c', 'e', 'N', 'u', 'm', 'b', 'e', 'r'], defs := [Rfc2985.SequenceNumber] },
   { name := ['S', 'e', 'q', 'u', 'e', 'n', 'c', 'e', 'N', 'u', 'm', 'b', 'e', 'r', 'A', 'd', 'j', 'u', 's', 't'], defs := [Rfc5934.SequenceNumberAdjust] },
   { name := ['S', 'e', 'q', 'u', 'e', 'n', 'c', 'e', 'N', 'u', 'm', 'b', 'e', 'r', 'A', 'd', 'j', 'u', 's', 't', 'C', 'o', 'n', 'f', 'i', 'r', 'm'], defs := [Rfc5934.SequenceNumberAdjustConfirm] },
   { name := ['S', 'e', 'r', 'i', 'a', 'l', 'N', 'u', 'm', 'b', 'e', 'r'], defs := [Rfc2315.SerialNumber] },
   { name := ['S', 'e', 'r', 'v', 'i', 'c', 'e', 'L', 'o', 'c', 'a', 't', 'o', 'r'], defs := [Rfc6960.ServiceLocator] },
   { name := ['S', 'e', 'r', 'v', 'i', 'c', 'e', 'P', 'r', 'o', 'v', 'i', 'd', 'e', 'r', 'C', 'o', 'd', 'e'], defs := [Rfc8226.ServiceProviderCode] },
   { name := ['S', 'e', 't', 'R', 'e', 'q', 'u', 'e', 's', 't', 'P', 'D', 'U'], defs := [Rfc1157.SetRequestPDU, Rfc1905.SetRequestPDU],
     apart := [(0, 1, [163, 11, 2, 1, 255, 2, 1, 255, 2, 1, 255, 48, 0]),
       (1, 0, [163, 18, 2, 1, 255, 2, 1, 255, 2, 1, 0, 48, 7, 48, 5, 6, 1, 42, 128, 0])] },
   { name := ['S', 'h', 'a', 'k', 'e', 'O', 'u', 't', 'p', 'u', 't', 'L', 'e', 'n'], defs := [Rfc8419.ShakeOutputLen] },
   { name := ['S', 'h', 'o', 'r', 't', 'T', 'i', 't', 'l', 'e'], defs := [Rfc7906.ShortTitle] },
   { name := ['S', 'i', 'g', 'P', 'o', 'l', 'i', 'c', 'y', 'H', 'a', 's', 'h'], defs := [Rfc5126.OtherHashAlgAndValue] }]

def block26 : List Group :=
  [{ name := ['S', 'i', 'g', 'P', 'o', 'l', 'i', 'c', 'y', 'I', 'd'], defs := [Rfc5126.SigPolicyId] },
   { name := ['S', 'i', 'g', 'P', 'o', 'l', 'i', 'c', 'y', 'Q', 'u', 'a', 'l', 'i', 'f', 'i', 'e', 'r', 'I', 'd'], defs := [Rfc5126.SigPolicyQualifierId] },
   { name := ['S', 'i', 'g', 'P', 'o', 'l', 'i', 'c', 'y', 'Q', 'u', 'a', 'l', 'i', 'f', 'i', 'e', 'r', 'I', 'n', 'f', 'o'], defs := [Rfc5126.SigPolicyQualifierInfo] },
   { name := ['S', 'i', 'g', 'n', 'A', 't', 't', 'r', 's', 'H', 'a', 's', 'h'], defs := [Rfc5752.SignAttrsHash] },
   { name := ['S', 'i', 'g', 'n', 'P', 'o', 'l', 'E', 'x', 't', 'e', 'n', 's', 'i', 'o', 'n', 's'], defs := [Rfc3125.SignPolExtensions] },
   { name := ['S', 'i', 'g', 'n', 'P', 'o', 'l', 'E', 'x', 't', 'n'], defs := [Rfc3125.SignPolExtn] },
   { name := ['S', 'i', 'g', 'n', 'P', 'o', 'l', 'i', 'c', 'y', 'H', 'a', 's', 'h'], defs := [Rfc3125.SignPolicyHash] },
   { name := ['S', 'i', 'g', 'n', 'P', 'o', 'l', 'i', 'c', 'y', 'I', 'd'], defs := [Rfc3125.SignPolicyId] },
   { name := ['S', 'i', 'g', 'n', 'P', 'o', 'l', 'i', 'c', 'y', 'I', 'n', 'f', 'o'], defs := [Rfc3125.SignPolicyInfo] },
   { name := ['S', 'i', 'g', 'n', 'a', 't', 'u', 'r', 'e'], defs := [Rfc2314.Signature, Rfc2315.Signature, Rfc2560.Signature, Rfc3852.Signature, Rfc5652.Signature, Rfc6960.Signature],
     apart := [(0, 2, [3, 1, 0]),
       (0, 5, [3, 1, 0]),
       (1, 2, [3, 1, 0]),
       (1, 5, [3, 1, 0]),
       (2, 0, [48, 8, 48, 3, 6, 1, 42, 3, 1, 0]),
       (2, 1, [48, 8, 48, 3, 6, 1, 42, 3, 1, 0]),
       (2, 3, [48, 8, 48, 3, 6, 1, 42, 3, 1, 0]),
       (2, 4, [48, 8, 48, 3, 6, 1, 42, 3, 1, 0]),
       (3, 2, [3, 1, 0]),
       (3, 5, [3, 1, 0]),
       (4, 2, [3, 1, 0]),
       (4, 5, [3, 1, 0]),
       (5, 0, [48, 8, 48, 3, 6, 1, 42, 3, 1, 0]),
       (5, 1, [48, 8, 48, 3, 6, 1, 42, 3, 1, 0]),
       (5, 3, [48, 8, 48, 3, 6, 1, 42, 3, 1, 0]),
       (5, 4, [48, 8, 48, 3, 6, 1, 42, 3, 1, 0])] },
   { name := ['S', 'i', 'g', 'n', 'a', 't', 'u', 'r', 'e', 'A', 'l', 'g', 'o', 'r', 'i', 't', 'h', 'm', 'I', 'd', 'e', 'n', 't', 'i', 'f', 'i', 'e', 'r'], defs := [Rfc2459.AlgorithmIdentifier, Rfc3280.AlgorithmIdentifier, Rfc5280.AlgorithmIdentifier] },
   { name := ['S', 'i', 'g', 'n', 'a', 't', 'u', 'r', 'e', 'P', 'o', 'l', 'i', 'c', 'y'], defs := [Rfc3125.SignaturePolicy, Rfc5126.SignaturePolicy],
     apart := [(0, 1, [48, 65, 48, 3, 6, 1, 42, 48, 58, 6, 1, 42, 24, 15, 49, 57, 55, 48, 48, 49, 48, 49, 48, 48, 48, 48, 48, 48, 90, 48, 2, 129, 0, 20, 1, 65, 48, 29, 48, 17, 24, 15, 49, 57, 55, 48, 48, 49, 48, 49, 48, 48, 48, 48, 48, 48, 90, 48, 0, 48, 6, 48, 4, 48, 2, 5, 0]),
       (1, 0, [5, 0])] },
   { name := ['S', 'i', 'g', 'n', 'a', 't', 'u', 'r', 'e', 'P', 'o', 'l', 'i', 'c', 'y', 'I', 'd'], defs := [Rfc5126.SignaturePolicyId] },
   { name := ['S', 'i', 'g', 'n', 'a', 't', 'u', 'r', 'e', 'P', 'o', 'l', 'i', 'c', 'y', 'I', 'm', 'p', 'l', 'i', 'e', 'd'], defs := [Rfc5126.SignaturePolicyImplied] },
   { name := ['S', 'i', 'g', 'n', 'a', 't', 'u', 'r', 'e', 'T', 'i', 'm', 'e', 'S', 't', 'a', 'm', 'p', 'T', 'o', 'k', 'e', 'n'], defs := [Rfc5652.ContentInfo] },
   { name := ['S', 'i', 'g', 'n', 'a', 't', 'u', 'r', 'e', 'U', 's', 'a', 'g', 'e'], defs := [Rfc6010.CMSContentConstraints] },
   { name := ['S', 'i', 'g', 'n', 'a', 't', 'u', 'r', 'e', 'V', 'a', 'l', 'i', 'd', 'a', 't', 'i', 'o', 'n', 'P', 'o', 'l', 'i', 'c', 'y'], defs := [Rfc3125.SignatureValidationPolicy] },
   { name := ['S', 'i', 'g', 'n', 'a', 't', 'u', 'r', 'e', 'V', 'a', 'l', 'u', 'e'], defs := [Rfc3852.SignatureValue, Rfc5652.SignatureValue] },
   { name := ['S', 'i', 'g', 'n', 'e', 'd', 'A', 'n', 'd', 'E', 'n', 'v', 'e', 'l', 'o', 'p', 'e', 'd', 'D', 'a', 't', 'a'], defs := [Rfc2315.SignedAndEnvelopedData] },
   { name := ['S', 'i', 'g', 'n', 'e', 'd', 'A', 't', 't', 'r', 'i', 'b', 'u', 't', 'e', 's'], defs := [Rfc3852.SignedAttributes, Rfc5652.SignedAttributes] },
   { name := ['S', 'i', 'g', 'n', 'e', 'd', 'D', 'a', 't', 'a'], defs := [Rfc2315.SignedData, Rfc3852.SignedData, Rfc5652.SignedData],
     apart := [(0, 1, [48, 8, 2, 1, 6, 48, 3, 6, 1, 42]),
       (0, 2, [48, 8, 2, 1, 6, 48, 3, 6, 1, 42]),
       (1, 0, [48, 36, 2, 1, 255, 49, 5, 48, 3, 6, 1, 42, 48, 3, 6, 1, 42, 49, 19, 48, 17, 2, 1, 255, 128, 0, 48, 3, 6, 1, 42, 48, 3, 6, 1, 42, 4, 0]),
       (2, 0, [48, 36, 2, 1, 255, 49, 5, 48, 3, 6, 1, 42, 48, 3, 6, 1, 42, 49, 19, 48, 17, 2, 1, 255, 128, 0, 48, 3, 6, 1, 42, 48, 3, 6, 1, 42, 4, 0])] },
   { name := ['S', 'i', 'g', 'n', 'e', 'r', 'A', 'n', 'd', 'V', 'e', 'r', 'i', 'f', 'i', 'e', 'r', 'R', 'u', 'l', 'e', 's'], defs := [Rfc3125.SignerAndVerifierRules] },
   { name := ['S', 'i', 'g', 'n', 'e', 'r', 'A', 't', 't', 'r', 'i', 'b', 'u', 't', 'e'], defs := [Rfc5126.SignerAttribute] },
   { name := ['S', 'i', 'g', 'n', 'e', 'r', 'I', 'd', 'e', 'n', 't', 'i', 'f', 'i', 'e', 'r'], defs := [Rfc3852.SignerIdentifier, Rfc5652.SignerIdentifier] },
   { name := ['S', 'i', 'g', 'n', 'e', 'r', 'I', 'n', 'f', 'o'], defs := [Rfc2315.SignerInfo, Rfc5652.SignerInfo, Rfc3852.SignerInfo],
     apart := [(1, 0, [48, 17, 2, 1, 255, 128, 0, 48, 3, 6, 1, 42, 48, 3, 6, 1, 42, 4, 0]),
       (2, 0, [48, 17, 2, 1, 255, 128, 0, 48, 3, 6, 1, 42, 48, 3, 6, 1, 42, 4, 0])] },
   { name := ['S', 'i', 'g', 'n', 'e', 'r', 'I', 'n', 'f', 'o', 's'], defs := [Rfc2315.SignerInfos, Rfc3852.SignerInfos, Rfc5652.SignerInfos],
     apart := [(1, 0, [49, 19, 48, 17, 2, 1, 255, 128, 0, 48, 3, 6, 1, 42, 48, 3, 6, 1, 42, 4, 0]),
       (2, 0, [49, 19, 48, 17, 2, 1, 255, 128, 0, 48, 3, 6, 1, 42, 48, 3, 6, 1, 42, 4, 0])] },
   { name := ['S', 'i', 'g', 'n', 'e', 'r', 'L', 'o', 'c', 'a', 't', 'i', 'o', 'n'], defs := [Rfc5126.SignerLocation] },
   { name := ['S', 'i', 'g', 'n', 'e', 'r', 'R', 'u', 'l', 'e', 's'], defs := [Rfc3125.SignerRules] },
   { name := ['S', 'i', 'g', 'n', 'i', 'n', 'g', 'C', 'e', 'r', 't', 'T', 'r', 'u', 's', 't', 'C', 'o', 'n', 'd', 'i', 't', 'i', 'o', 'n'], defs := [Rfc3125.SigningCertTrustCondition] },
   { name := ['S', 'i', 'g', 'n', 'i', 'n', 'g', 'C', 'e', 'r', 't', 'i', 'f', 'i', 'c', 'a', 't', 'e'], defs := [Rfc2634.SigningCertificate] },
   { name := ['S', 'i', 'g', 'n', 'i', 'n', 'g', 'C', 'e', 'r', 't', 'i', 'f', 'i', 'c', 'a', 't', 'e', 'V', '2'], defs := [Rfc5035.SigningCertificateV2] },
   { name := ['S', 'i', 'g', 'n', 'i', 'n', 'g', 'P', 'e', 'r', 'i', 'o', 'd'], defs := [Rfc3125.SigningPeriod] }]

def block27 : List Group :=
  [{ name := ['S', 'i', 'g', 'n', 'i', 'n', 'g', 'T', 'i', 'm', 'e'], defs := [Rfc5652.Time, Rfc3852.Time] },
   { name := ['S', 'i', 'm', 'p', 'l', 'e', 'S', 'y', 'n', 't', 'a', 'x'], defs := [Rfc1155.SimpleSyntax, Rfc1902.SimpleSyntax],
     apart := [(0, 1, [5, 0])] },
   { name := ['S', 'i', 'n', 'g', 'l', 'e', 'A', 't', 't', 'r', 'i', 'b', 'u', 't', 'e'], defs := [Rfc2985.SingleAttribute, Rfc7191.SingleAttribute] },
   { name := ['S', 'i', 'n', 'g', 'l', 'e', 'A', 't', 't', 'r', 'i', 'b', 'u', 't', 'e', 'V', 'a', 'l', 'u', 'e', 's'], defs := [Rfc2985.SingleAttributeValues] },
   { name := ['S', 'i', 'n', 'g', 'l', 'e', 'P', 'u', 'b', 'I', 'n', 'f', 'o'], defs := [Rfc2511.SinglePubInfo, Rfc4211.SinglePubInfo],
     apart := [(0, 1, [48, 5, 2, 1, 255, 4, 0]),
       (1, 0, [48, 5, 2, 1, 255, 129, 0])] },
   { name := ['S', 'i', 'n', 'g', 'l', 'e', 'R', 'e', 's', 'p', 'o', 'n', 's', 'e'], defs := [Rfc2560.SingleResponse, Rfc6960.SingleResponse] },
   { name := ['S', 'k', 'i', 'p', 'C', 'e', 'r', 't', 's'], defs := [Rfc2459.SkipCerts, Rfc3125.SkipCerts, Rfc3280.SkipCerts, Rfc5280.SkipCerts],
     apart := [(1, 0, [2, 1, 0]),
       (2, 0, [2, 1, 0]),
       (3, 0, [2, 1, 0])] },
   { name := ['S', 'k', 'i', 'p', 'j', 'a', 'c', 'k', '_', 'P', 'a', 'r', 'm'], defs := [Rfc2876.Skipjack_Parm] },
   { name := ['S', 'm', 't', 'p', 'U', 'T', 'F', '8', 'M', 'a', 'i', 'l', 'b', 'o', 'x'], defs := [Rfc8398.SmtpUTF8Mailbox] },
   { name := ['S', 'p', 'l', 'i', 't', 'I', 'D'], defs := [Rfc7906.SplitID] },
   { name := ['S', 't', 'a', 't', 'u', 's', 'C', 'o', 'd', 'e'], defs := [Rfc5934.StatusCode] },
   { name := ['S', 't', 'a', 't', 'u', 's', 'C', 'o', 'd', 'e', 'L', 'i', 's', 't'], defs := [Rfc5934.StatusCodeList] },
   { name := ['S', 't', 'a', 't', 'u', 's', 'R', 'e', 's', 'p', 'o', 'n', 's', 'e'], defs := [Rfc5934.StatusResponse] },
   { name := ['S', 't', 'r', 'e', 'e', 't', 'A', 'd', 'd', 'r', 'e', 's', 's'], defs := [Rfc2459.PDSParameter, Rfc3280.PDSParameter, Rfc5280.PDSParameter] },
   { name := ['S', 'u', 'b', 'j', 'e', 'c', 't', 'A', 'l', 't', 'N', 'a', 'm', 'e'], defs := [Rfc2459.GeneralNames, Rfc3280.GeneralNames, Rfc5280.GeneralNames],
     apart := [(0, 1, [48, 7, 165, 5, 161, 3, 22, 1, 65]),
       (0, 2, [48, 7, 165, 5, 161, 3, 22, 1, 65]),
       (1, 0, [48, 7, 163, 5, 48, 3, 128, 1, 65]),
       (2, 0, [48, 7, 163, 5, 48, 3, 128, 1, 65])] },
   { name := ['S', 'u', 'b', 'j', 'e', 'c', 't', 'D', 'i', 'r', 'e', 'c', 't', 'o', 'r', 'y', 'A', 't', 't', 'r', 'i', 'b', 'u', 't', 'e', 's'], defs := [Rfc2459.SubjectDirectoryAttributes, Rfc3280.SubjectDirectoryAttributes, Rfc5280.SubjectDirectoryAttributes] },
   { name := ['S', 'u', 'b', 'j', 'e', 'c', 't', 'I', 'n', 'f', 'o', 'A', 'c', 'c', 'e', 's', 's', 'S', 'y', 'n', 't', 'a', 'x'], defs := [Rfc3280.SubjectInfoAccessSyntax, Rfc5280.SubjectInfoAccessSyntax] },
   { name := ['S', 'u', 'b', 'j', 'e', 'c', 't', 'K', 'e', 'y', 'I', 'd', 'e', 'n', 't', 'i', 'f', 'i', 'e', 'r'], defs := [Rfc2459.KeyIdentifier, Rfc5652.SubjectKeyIdentifier, Rfc3280.KeyIdentifier, Rfc3852.SubjectKeyIdentifier, Rfc5280.KeyIdentifier] },
   { name := ['S', 'u', 'b', 'j', 'e', 'c', 't', 'P', 'u', 'b', 'l', 'i', 'c', 'K', 'e', 'y', 'I', 'n', 'f', 'o'], defs := [Rfc2459.SubjectPublicKeyInfo, Rfc5280.SubjectPublicKeyInfo, Rfc3280.SubjectPublicKeyInfo] },
   { name := ['S', 'u', 'b', 's', 'e', 'q', 'u', 'e', 'n', 't', 'M', 'e', 's', 's', 'a', 'g', 'e'], defs := [Rfc2511.SubsequentMessage, Rfc4211.SubsequentMessage] },
   { name := ['S', 'u', 'b', 's', 't', 'r', 'i', 'n', 'g', 'F', 'i', 'l', 't', 'e', 'r'], defs := [Rfc2251.SubstringFilter] },
   { name := ['S', 'v', 'c', 'e', 'A', 'u', 't', 'h', 'I', 'n', 'f', 'o'], defs := [Rfc3281.SvceAuthInfo, Rfc5755.SvceAuthInfo] },
   { name := ['S', 'y', 'm', 'm', 'e', 't', 'r', 'i', 'c', 'K', 'e', 'y', 'P', 'a', 'c', 'k', 'a', 'g', 'e'], defs := [Rfc6031.SymmetricKeyPackage] },
   { name := ['S', 'y', 'm', 'm', 'e', 't', 'r', 'i', 'c', 'K', 'e', 'y', 's'], defs := [Rfc6031.SymmetricKeys] },
   { name := ['T', 'A', 'C', 'T', 'o', 'k', 'e', 'n'], defs := [Rfc5636.TACToken] },
   { name := ['T', 'A', 'C', 'T', 'o', 'k', 'e', 'n', 'a', 'n', 'd', 'B', 'l', 'i', 'n', 'd', 'H', 'a', 's', 'h'], defs := [Rfc5636.TACTokenandBlindHash] },
   { name := ['T', 'A', 'C', 'T', 'o', 'k', 'e', 'n', 'a', 'n', 'd', 'P', 'a', 'r', 't', 'i', 'a', 'l', 'l', 'y', 'S', 'i', 'g', 'n', 'e', 'd', 'C', 'e', 'r', 't', 'i', 'f', 'i', 'c', 'a', 't', 'e', 'H', 'a', 's', 'h'], defs := [Rfc5636.TACTokenandPartiallySignedCertificateHash] },
   { name := ['T', 'A', 'M', 'P', 'A', 'p', 'e', 'x', 'U', 'p', 'd', 'a', 't', 'e'], defs := [Rfc5934.TAMPApexUpdate] },
   { name := ['T', 'A', 'M', 'P', 'A', 'p', 'e', 'x', 'U', 'p', 'd', 'a', 't', 'e', 'C', 'o', 'n', 'f', 'i', 'r', 'm'], defs := [Rfc5934.TAMPApexUpdateConfirm] },
   { name := ['T', 'A', 'M', 'P', 'C', 'o', 'm', 'm', 'u', 'n', 'i', 't', 'y', 'U', 'p', 'd', 'a', 't', 'e'], defs := [Rfc5934.TAMPCommunityUpdate] },
   { name := ['T', 'A', 'M', 'P', 'C', 'o', 'm', 'm', 'u', 'n', 'i', 't', 'y', 'U', 'p', 'd', 'a', 't', 'e', 'C', 'o', 'n', 'f', 'i', 'r', 'm'], defs := [Rfc5934.TAMPCommunityUpdateConfirm] },
   { name := ['T', 'A', 'M', 'P', 'E', 'r', 'r', 'o', 'r'], defs := [Rfc5934.TAMPError] }]

def block28 : List Group :=
  [{ name := ['T', 'A', 'M', 'P', 'M', 's', 'g', 'R', 'e', 'f'], defs := [Rfc5934.TAMPMsgRef] },
   { name := ['T', 'A', 'M', 'P', 'S', 'e', 'q', 'u', 'e', 'n', 'c', 'e', 'N', 'u', 'm', 'b', 'e', 'r'], defs := [Rfc5934.TAMPSequenceNumber] },
   { name := ['T', 'A', 'M', 'P', 'S', 'e', 'q', 'u', 'e', 'n', 'c', 'e', 'N', 'u', 'm', 'b', 'e', 'r', 's'], defs := [Rfc5934.TAMPSequenceNumbers] },
   { name := ['T', 'A', 'M', 'P', 'S', 't', 'a', 't', 'u', 's', 'Q', 'u', 'e', 'r', 'y'], defs := [Rfc5934.TAMPStatusQuery] },
   { name := ['T', 'A', 'M', 'P', 'S', 't', 'a', 't', 'u', 's', 'R', 'e', 's', 'p', 'o', 'n', 's', 'e'], defs := [Rfc5934.TAMPStatusResponse] },
   { name := ['T', 'A', 'M', 'P', 'U', 'p', 'd', 'a', 't', 'e'], defs := [Rfc5934.TAMPUpdate] },
   { name := ['T', 'A', 'M', 'P', 'U', 'p', 'd', 'a', 't', 'e', 'C', 'o', 'n', 'f', 'i', 'r', 'm'], defs := [Rfc5934.TAMPUpdateConfirm] },
   { name := ['T', 'A', 'M', 'P', 'V', 'e', 'r', 's', 'i', 'o', 'n'], defs := [Rfc5934.TAMPVersion] },
   { name := ['T', 'B', 'S', 'C', 'e', 'r', 't', 'L', 'i', 's', 't'], defs := [Rfc2459.TBSCertList, Rfc3280.TBSCertList, Rfc5280.TBSCertList] },
   { name := ['T', 'B', 'S', 'C', 'e', 'r', 't', 'i', 'f', 'i', 'c', 'a', 't', 'e'], defs := [Rfc2459.TBSCertificate, Rfc3280.TBSCertificate, Rfc5280.TBSCertificate] },
   { name := ['T', 'B', 'S', 'C', 'e', 'r', 't', 'i', 'f', 'i', 'c', 'a', 't', 'e', 'C', 'h', 'a', 'n', 'g', 'e', 'I', 'n', 'f', 'o'], defs := [Rfc5934.TBSCertificateChangeInfo] },
   { name := ['T', 'B', 'S', 'C', 'e', 'r', 't', 'i', 'f', 'i', 'c', 'a', 't', 'e', 'R', 'e', 'v', 'o', 'c', 'a', 't', 'i', 'o', 'n', 'L', 'i', 's', 't'], defs := [Rfc2315.TBSCertificateRevocationList] },
   { name := ['T', 'B', 'S', 'R', 'e', 'q', 'u', 'e', 's', 't'], defs := [Rfc2560.TBSRequest, Rfc6960.TBSRequest],
     apart := [(0, 1, [48, 22, 161, 2, 4, 0, 48, 16, 48, 14, 48, 12, 48, 3, 6, 1, 42, 4, 0, 4, 0, 2, 1, 255]),
       (1, 0, [48, 22, 161, 2, 130, 0, 48, 16, 48, 14, 48, 12, 48, 3, 6, 1, 42, 4, 0, 4, 0, 2, 1, 255])] },
   { name := ['T', 'N', 'A', 'u', 't', 'h', 'o', 'r', 'i', 'z', 'a', 't', 'i', 'o', 'n', 'L', 'i', 's', 't'], defs := [Rfc8226.TNAuthorizationList] },
   { name := ['T', 'N', 'E', 'n', 't', 'r', 'y'], defs := [Rfc8226.TNEntry] },
   { name := ['T', 'S', 'A', 'P', 'o', 'l', 'i', 'c', 'y', 'I', 'd'], defs := [Rfc3161.TSAPolicyId] },
   { name := ['T', 'S', 'E', 'C', 'N', 'o', 'm', 'e', 'n', 'c', 'l', 'a', 't', 'u', 'r', 'e'], defs := [Rfc7906.TSECNomenclature] },
   { name := ['T', 'S', 'T', 'I', 'n', 'f', 'o'], defs := [Rfc3161.TSTInfo] },
   { name := ['T', 'a', 'g', 'g', 'e', 'd', 'A', 't', 't', 'r', 'i', 'b', 'u', 't', 'e'], defs := [Rfc6402.TaggedAttribute] },
   { name := ['T', 'a', 'g', 'g', 'e', 'd', 'C', 'e', 'r', 't', 'i', 'f', 'i', 'c', 'a', 't', 'i', 'o', 'n', 'R', 'e', 'q', 'u', 'e', 's', 't'], defs := [Rfc6402.TaggedCertificationRequest] },
   { name := ['T', 'a', 'g', 'g', 'e', 'd', 'C', 'o', 'n', 't', 'e', 'n', 't', 'I', 'n', 'f', 'o'], defs := [Rfc6402.TaggedContentInfo] },
   { name := ['T', 'a', 'g', 'g', 'e', 'd', 'R', 'e', 'q', 'u', 'e', 's', 't'], defs := [Rfc6402.TaggedRequest] },
   { name := ['T', 'a', 'r', 'g', 'e', 't'], defs := [Rfc3281.Target, Rfc5755.Target] },
   { name := ['T', 'a', 'r', 'g', 'e', 't', 'C', 'e', 'r', 't'], defs := [Rfc3281.TargetCert, Rfc5755.TargetCert] },
   { name := ['T', 'a', 'r', 'g', 'e', 't', 'H', 'a', 'r', 'd', 'w', 'a', 'r', 'e', 'I', 'd', 'e', 'n', 't', 'i', 'f', 'i', 'e', 'r', 's'], defs := [Rfc4108.TargetHardwareIdentifiers] },
   { name := ['T', 'a', 'r', 'g', 'e', 't', 'I', 'd', 'e', 'n', 't', 'i', 'f', 'i', 'e', 'r'], defs := [Rfc5934.TargetIdentifier] },
   { name := ['T', 'a', 'r', 'g', 'e', 't', 's'], defs := [Rfc3281.Targets, Rfc5755.Targets] },
   { name := ['T', 'e', 'l', 'e', 'p', 'h', 'o', 'n', 'e', 'N', 'u', 'm', 'b', 'e', 'r'], defs := [Rfc8226.TelephoneNumber] },
   { name := ['T', 'e', 'l', 'e', 'p', 'h', 'o', 'n', 'e', 'N', 'u', 'm', 'b', 'e', 'r', 'R', 'a', 'n', 'g', 'e'], defs := [Rfc8226.TelephoneNumberRange] },
   { name := ['T', 'e', 'l', 'e', 't', 'e', 'x', 'C', 'o', 'm', 'm', 'o', 'n', 'N', 'a', 'm', 'e'], defs := [Rfc2459.TeletexCommonName, Rfc3280.TeletexCommonName, Rfc5280.TeletexCommonName] },
   { name := ['T', 'e', 'l', 'e', 't', 'e', 'x', 'D', 'o', 'm', 'a', 'i', 'n', 'D', 'e', 'f', 'i', 'n', 'e', 'd', 'A', 't', 't', 'r', 'i', 'b', 'u', 't', 'e'], defs := [Rfc2459.TeletexDomainDefinedAttribute, Rfc3280.TeletexDomainDefinedAttribute, Rfc5280.TeletexDomainDefinedAttribute],
     apart := [(0, 1, [48, 5, 20, 1, 64, 20, 0]),
       (0, 2, [48, 5, 20, 1, 64, 20, 0])] },
   { name := ['T', 'e', 'l', 'e', 't', 'e', 'x', 'D', 'o', 'm', 'a', 'i', 'n', 'D', 'e', 'f', 'i', 'n', 'e', 'd', 'A', 't', 't', 'r', 'i', 'b', 'u', 't', 'e', 's'], defs := [Rfc2459.TeletexDomainDefinedAttributes, Rfc3280.TeletexDomainDefinedAttributes, Rfc5280.TeletexDomainDefinedAttributes],
     apart := [(0, 1, [48, 7, 48, 5, 20, 1, 64, 20, 0]),
       (0, 2, [48, 7, 48, 5, 20, 1, 64, 20, 0])] }]

def block29 : List Group :=
  [{ name := ['T', 'e', 'l', 'e', 't', 'e', 'x', 'O', 'r', 'g', 'a', 'n', 'i', 'z', 'a', 't', 'i', 'o', 'n', 'N', 'a', 'm', 'e'], defs := [Rfc2459.TeletexOrganizationName, Rfc3280.TeletexOrganizationName, Rfc5280.TeletexOrganizationName] },
   { name := ['T', 'e', 'l', 'e', 't', 'e', 'x', 'O', 'r', 'g', 'a', 'n', 'i', 'z', 'a', 't', 'i', 'o', 'n', 'a', 'l', 'U', 'n', 'i', 't', 'N', 'a', 'm', 'e'], defs := [Rfc2459.TeletexOrganizationalUnitName, Rfc3280.TeletexOrganizationalUnitName, Rfc5280.TeletexOrganizationalUnitName] },
   { name := ['T', 'e', 'l', 'e', 't', 'e', 'x', 'O', 'r', 'g', 'a', 'n', 'i', 'z', 'a', 't', 'i', 'o', 'n', 'a', 'l', 'U', 'n', 'i', 't', 'N', 'a', 'm', 'e', 's'], defs := [Rfc2459.TeletexOrganizationalUnitNames, Rfc3280.TeletexOrganizationalUnitNames, Rfc5280.TeletexOrganizationalUnitNames] },
   { name := ['T', 'e', 'l', 'e', 't', 'e', 'x', 'P', 'e', 'r', 's', 'o', 'n', 'a', 'l', 'N', 'a', 'm', 'e'], defs := [Rfc2459.TeletexPersonalName, Rfc3280.TeletexPersonalName, Rfc5280.TeletexPersonalName],
     apart := [(0, 1, [49, 5, 160, 3, 20, 1, 65]),
       (0, 2, [49, 5, 160, 3, 20, 1, 65]),
       (1, 0, [49, 3, 128, 1, 64]),
       (2, 0, [49, 3, 128, 1, 64])] },
   { name := ['T', 'e', 'r', 'm', 'i', 'n', 'a', 'l', 'I', 'd', 'e', 'n', 't', 'i', 'f', 'i', 'e', 'r'], defs := [Rfc2459.TerminalIdentifier, Rfc3280.TerminalIdentifier, Rfc5280.TerminalIdentifier] },
   { name := ['T', 'e', 'r', 'm', 'i', 'n', 'a', 'l', 'T', 'y', 'p', 'e'], defs := [Rfc2459.TerminalType, Rfc3280.TerminalType, Rfc5280.TerminalType],
     apart := [(1, 0, [2, 1, 1]),
       (2, 0, [2, 1, 1])] },
   { name := ['T', 'e', 'r', 's', 'e', 'A', 'p', 'e', 'x', 'U', 'p', 'd', 'a', 't', 'e', 'C', 'o', 'n', 'f', 'i', 'r', 'm'], defs := [Rfc5934.StatusCode] },
   { name := ['T', 'e', 'r', 's', 'e', 'C', 'o', 'm', 'm', 'u', 'n', 'i', 't', 'y', 'C', 'o', 'n', 'f', 'i', 'r', 'm'], defs := [Rfc5934.StatusCode] },
   { name := ['T', 'e', 'r', 's', 'e', 'O', 'r', 'V', 'e', 'r', 'b', 'o', 's', 'e'], defs := [Rfc5934.TerseOrVerbose] },
   { name := ['T', 'e', 'r', 's', 'e', 'S', 't', 'a', 't', 'u', 's', 'R', 'e', 's', 'p', 'o', 'n', 's', 'e'], defs := [Rfc5934.TerseStatusResponse] },
   { name := ['T', 'e', 'r', 's', 'e', 'U', 'p', 'd', 'a', 't', 'e', 'C', 'o', 'n', 'f', 'i', 'r', 'm'], defs := [Rfc5934.StatusCodeList] },
   { name := ['T', 'i', 'm', 'e'], defs := [Rfc2459.Time, Rfc5280.Time, Rfc3280.Time, Rfc3852.Time, Rfc5652.Time] },
   { name := ['T', 'i', 'm', 'e', 'S', 't', 'a', 'm', 'p', 'R', 'e', 'q'], defs := [Rfc3161.TimeStampReq] },
   { name := ['T', 'i', 'm', 'e', 'S', 't', 'a', 'm', 'p', 'R', 'e', 's', 'p'], defs := [Rfc3161.TimeStampResp] },
   { name := ['T', 'i', 'm', 'e', 'S', 't', 'a', 'm', 'p', 'T', 'o', 'k', 'e', 'n'], defs := [Rfc5652.ContentInfo] },
   { name := ['T', 'i', 'm', 'e', 'T', 'i', 'c', 'k', 's'], defs := [Rfc1155.TimeTicks, Rfc1902.TimeTicks] },
   { name := ['T', 'i', 'm', 'e', 'o', 'u', 't'], defs := [Rfc5636.Timeout] },
   { name := ['T', 'i', 'm', 'e', 's', 't', 'a', 'm', 'p', 'T', 'r', 'u', 's', 't', 'C', 'o', 'n', 'd', 'i', 't', 'i', 'o', 'n'], defs := [Rfc3125.TimestampTrustCondition] },
   { name := ['T', 'i', 'm', 'e', 's', 't', 'a', 'm', 'p', 'e', 'd', 'C', 'e', 'r', 't', 's', 'C', 'R', 'L', 's'], defs := [Rfc5652.ContentInfo] },
   { name := ['T', 'o', 'k', 'e', 'n'], defs := [Rfc5652.ContentInfo] },
   { name := ['T', 'o', 'k', 'e', 'n', 'a', 'n', 'd', 'B', 'l', 'i', 'n', 'd', 'H', 'a', 's', 'h'], defs := [Rfc5652.ContentInfo] },
   { name := ['T', 'o', 'k', 'e', 'n', 'a', 'n', 'd', 'P', 'a', 'r', 't', 'i', 'a', 'l', 'l', 'y', 'S', 'i', 'g', 'n', 'e', 'd', 'C', 'e', 'r', 't', 'i', 'f', 'i', 'c', 'a', 't', 'e', 'H', 'a', 's', 'h'], defs := [Rfc5652.ContentInfo] },
   { name := ['T', 'r', 'a', 'i', 'l', 'e', 'r', 'F', 'i', 'e', 'l', 'd'], defs := [Rfc8017.TrailerField] },
   { name := ['T', 'r', 'a', 'n', 's', 'O', 'p'], defs := [Rfc7906.TransOp] },
   { name := ['T', 'r', 'a', 'p', 'P', 'D', 'U'], defs := [Rfc1157.TrapPDU] },
   { name := ['T', 'r', 'i', 'n', 'o', 'm', 'i', 'a', 'l'], defs := [Rfc3279.Trinomial] },
   { name := ['T', 'r', 'u', 's', 't', 'A', 'n', 'c', 'h', 'o', 'r', 'C', 'h', 'a', 'n', 'g', 'e', 'I', 'n', 'f', 'o'], defs := [Rfc5934.TrustAnchorChangeInfo] },
   { name := ['T', 'r', 'u', 's', 't', 'A', 'n', 'c', 'h', 'o', 'r', 'C', 'h', 'a', 'n', 'g', 'e', 'I', 'n', 'f', 'o', 'C', 'h', 'o', 'i', 'c', 'e'], defs := [Rfc5934.TrustAnchorChangeInfoChoice] },
   { name := ['T', 'r', 'u', 's', 't', 'A', 'n', 'c', 'h', 'o', 'r', 'C', 'h', 'o', 'i', 'c', 'e'], defs := [Rfc5914.TrustAnchorChoice] },
   { name := ['T', 'r', 'u', 's', 't', 'A', 'n', 'c', 'h', 'o', 'r', 'C', 'h', 'o', 'i', 'c', 'e', 'L', 'i', 's', 't'], defs := [Rfc5934.TrustAnchorChoiceList] },
   { name := ['T', 'r', 'u', 's', 't', 'A', 'n', 'c', 'h', 'o', 'r', 'I', 'n', 'f', 'o'], defs := [Rfc5914.TrustAnchorInfo] },
   { name := ['T', 'r', 'u', 's', 't', 'A', 'n', 'c', 'h', 'o', 'r', 'I', 'n', 'f', 'o', 'V', 'e', 'r', 's', 'i', 'o', 'n'], defs := [Rfc5914.TrustAnchorInfoVersion] }]

def block30 : List Group :=
  [{ name := ['T', 'r', 'u', 's', 't', 'A', 'n', 'c', 'h', 'o', 'r', 'L', 'i', 's', 't'], defs := [Rfc5914.TrustAnchorList] },
   { name := ['T', 'r', 'u', 's', 't', 'A', 'n', 'c', 'h', 'o', 'r', 'T', 'i', 't', 'l', 'e'], defs := [Rfc5914.TrustAnchorTitle] },
   { name := ['T', 'r', 'u', 's', 't', 'A', 'n', 'c', 'h', 'o', 'r', 'U', 'p', 'd', 'a', 't', 'e'], defs := [Rfc5934.TrustAnchorUpdate] },
   { name := ['T', 'y', 'p', 'e', 'O', 'f', 'B', 'i', 'o', 'm', 'e', 't', 'r', 'i', 'c', 'D', 'a', 't', 'a'], defs := [Rfc3739.TypeOfBiometricData] },
   { name := ['U', 'T', 'F', '8', 'P', 'a', 'i', 'r', 's'], defs := [Rfc2511.UTF8Pairs, Rfc4211.UTF8Pairs] },
   { name := ['U', 'T', 'F', '8', 'S', 't', 'r', 'i', 'n', 'g'], defs := [Rfc2459.UTF8String] },
   { name := ['U', 'n', 'a', 'u', 't', 'h', 'A', 't', 't', 'r', 'i', 'b', 'u', 't', 'e', 's'], defs := [Rfc3852.UnauthAttributes, Rfc5652.UnauthAttributes] },
   { name := ['U', 'n', 'b', 'i', 'n', 'd', 'R', 'e', 'q', 'u', 'e', 's', 't'], defs := [Rfc2251.UnbindRequest] },
   { name := ['U', 'n', 'f', 'o', 'r', 'm', 'a', 't', 't', 'e', 'd', 'P', 'o', 's', 't', 'a', 'l', 'A', 'd', 'd', 'r', 'e', 's', 's'], defs := [Rfc2459.UnformattedPostalAddress, Rfc3280.UnformattedPostalAddress, Rfc5280.UnformattedPostalAddress],
     apart := [(1, 0, [49, 12, 48, 10, 19, 8, 65, 65, 65, 65, 65, 65, 65, 65]),
       (2, 0, [49, 12, 48, 10, 19, 8, 65, 65, 65, 65, 65, 65, 65, 65])] },
   { name := ['U', 'n', 'i', 'q', 'u', 'e', 'I', 'd', 'e', 'n', 't', 'i', 'f', 'i', 'e', 'r'], defs := [Rfc2459.UniqueIdentifier, Rfc3280.UniqueIdentifier, Rfc5280.UniqueIdentifier] },
   { name := ['U', 'n', 'i', 'q', 'u', 'e', 'P', 'o', 's', 't', 'a', 'l', 'N', 'a', 'm', 'e'], defs := [Rfc2459.PDSParameter, Rfc3280.PDSParameter, Rfc5280.PDSParameter] },
   { name := ['U', 'n', 'i', 'v', 'e', 'r', 's', 'a', 'l', 'S', 't', 'r', 'i', 'n', 'g'], defs := [Rfc2459.UniversalString] },
   { name := ['U', 'n', 'k', 'n', 'o', 'w', 'n', 'I', 'n', 'f', 'o'], defs := [Rfc2560.UnknownInfo] },
   { name := ['U', 'n', 'p', 'r', 'o', 't', 'e', 'c', 't', 'e', 'd', 'A', 't', 't', 'r', 'i', 'b', 'u', 't', 'e', 's'], defs := [Rfc3852.UnprotectedAttributes, Rfc5652.UnprotectedAttributes] },
   { name := ['U', 'n', 's', 'i', 'g', 'n', 'e', 'd', '3', '2'], defs := [Rfc1902.Unsigned32] },
   { name := ['U', 'n', 's', 'i', 'g', 'n', 'e', 'd', 'A', 't', 't', 'r', 'i', 'b', 'u', 't', 'e', 's'], defs := [Rfc3852.UnsignedAttributes, Rfc5652.UnsignedAttributes] },
   { name := ['U', 'p', 'd', 'a', 't', 'e', 'C', 'o', 'n', 'f', 'i', 'r', 'm'], defs := [Rfc5934.UpdateConfirm] },
   { name := ['U', 's', 'e', 'r', 'K', 'e', 'y'], defs := [Rfc5636.UserKey] },
   { name := ['U', 's', 'e', 'r', 'K', 'e', 'y', 'i', 'n', 'g', 'M', 'a', 't', 'e', 'r', 'i', 'a', 'l'], defs := [Rfc3852.UserKeyingMaterial, Rfc5652.UserKeyingMaterial] },
   { name := ['U', 's', 'e', 'r', 'N', 'o', 't', 'i', 'c', 'e'], defs := [Rfc2459.UserNotice, Rfc3280.UserNotice, Rfc5280.UserNotice],
     apart := [(1, 0, [48, 3, 22, 1, 65]),
       (2, 0, [48, 3, 22, 1, 65])] },
   { name := ['U', 's', 'm', 'S', 'e', 'c', 'u', 'r', 'i', 't', 'y', 'P', 'a', 'r', 'a', 'm', 'e', 't', 'e', 'r', 's'], defs := [Rfc3414.UsmSecurityParameters] },
   { name := ['V', '2', 'F', 'o', 'r', 'm'], defs := [Rfc3281.V2Form, Rfc5755.V2Form] },
   { name := ['V', 'a', 'l', 'i', 'd', 'a', 't', 'i', 'o', 'n', 'P', 'a', 'r', 'a', 'm', 's'], defs := [Rfc8479.ValidationParams] },
   { name := ['V', 'a', 'l', 'i', 'd', 'a', 't', 'i', 'o', 'n', 'P', 'a', 'r', 'm', 's'], defs := [Rfc2459.ValidationParms, Rfc3279.ValidationParms] },
   { name := ['V', 'a', 'l', 'i', 'd', 'i', 't', 'y'], defs := [Rfc2459.Validity, Rfc3280.Validity, Rfc5280.Validity] },
   { name := ['V', 'a', 'l', 'u', 'e', 'M', 'a', 'c'], defs := [Rfc6031.ValueMac] },
   { name := ['V', 'a', 'r', 'B', 'i', 'n', 'd'], defs := [Rfc1157.VarBind, Rfc1905.VarBind],
     apart := [(0, 1, [48, 10, 6, 1, 42, 2, 5, 0, 128, 0, 0, 0]),
       (1, 0, [48, 5, 6, 1, 42, 128, 0])] },
   { name := ['V', 'a', 'r', 'B', 'i', 'n', 'd', 'L', 'i', 's', 't'], defs := [Rfc1157.VarBindList, Rfc1905.VarBindList],
     apart := [(0, 1, [48, 12, 48, 10, 6, 1, 42, 2, 5, 0, 128, 0, 0, 0]),
       (1, 0, [48, 7, 48, 5, 6, 1, 42, 128, 0])] },
   { name := ['V', 'e', 'n', 'd', 'o', 'r', 'L', 'o', 'a', 'd', 'E', 'r', 'r', 'o', 'r', 'C', 'o', 'd', 'e'], defs := [Rfc4108.VendorLoadErrorCode] },
   { name := ['V', 'e', 'r', 'b', 'o', 's', 'e', 'A', 'p', 'e', 'x', 'U', 'p', 'd', 'a', 't', 'e', 'C', 'o', 'n', 'f', 'i', 'r', 'm'], defs := [Rfc5934.VerboseApexUpdateConfirm] },
   { name := ['V', 'e', 'r', 'b', 'o', 's', 'e', 'C', 'o', 'm', 'm', 'u', 'n', 'i', 't', 'y', 'C', 'o', 'n', 'f', 'i', 'r', 'm'], defs := [Rfc5934.VerboseCommunityConfirm] },
   { name := ['V', 'e', 'r', 'b', 'o', 's', 'e', 'S', 't', 'a', 't', 'u', 's', 'R', 'e', 's', 'p', 'o', 'n', 's', 'e'], defs := [Rfc5934.VerboseStatusResponse] }]

def block31 : List Group :=
  [{ name := ['V', 'e', 'r', 'b', 'o', 's', 'e', 'U', 'p', 'd', 'a', 't', 'e', 'C', 'o', 'n', 'f', 'i', 'r', 'm'], defs := [Rfc5934.VerboseUpdateConfirm] },
   { name := ['V', 'e', 'r', 'i', 'f', 'i', 'e', 'r', 'R', 'u', 'l', 'e', 's'], defs := [Rfc3125.VerifierRules] },
   { name := ['V', 'e', 'r', 's', 'i', 'o', 'n'], defs := [Rfc1157.Version, Rfc2314.Version, Rfc2315.Version, Rfc2437.Version, Rfc2459.Version, Rfc2560.Version, Rfc3280.Version, Rfc5208.Version, Rfc5280.Version, Rfc5958.Version, Rfc8017.Version] },
   { name := ['W', 'h', 'i', 'r', 'l', 'p', 'o', 'o', 'l', '_', 'S', 'e', 'c', 'u', 'r', 'i', 't', 'y', 'C', 'l', 'a', 's', 's', 'i', 'f', 'i', 'c', 'a', 't', 'i', 'o', 'n'], defs := [Rfc3114.Whirlpool_SecurityClassification] },
   { name := ['W', 'r', 'a', 'p', 'p', 'e', 'd', 'F', 'i', 'r', 'm', 'w', 'a', 'r', 'e', 'K', 'e', 'y'], defs := [Rfc5652.EnvelopedData] },
   { name := ['X', '1', '2', '1', 'A', 'd', 'd', 'r', 'e', 's', 's'], defs := [Rfc2459.X121Address, Rfc3280.X121Address, Rfc5280.X121Address] },
   { name := ['X', '5', '2', '0', 'C', 'o', 'm', 'm', 'o', 'n', 'N', 'a', 'm', 'e'], defs := [Rfc2459.X520CommonName, Rfc3280.X520CommonName, Rfc5280.X520CommonName] },
   { name := ['X', '5', '2', '0', 'L', 'o', 'c', 'a', 'l', 'i', 't', 'y', 'N', 'a', 'm', 'e'], defs := [Rfc2459.X520LocalityName, Rfc3280.X520LocalityName, Rfc5280.X520LocalityName] },
   { name := ['X', '5', '2', '0', 'O', 'r', 'g', 'a', 'n', 'i', 'z', 'a', 't', 'i', 'o', 'n', 'N', 'a', 'm', 'e'], defs := [Rfc2459.X520OrganizationName, Rfc3280.X520OrganizationName, Rfc5280.X520OrganizationName] },
   { name := ['X', '5', '2', '0', 'O', 'r', 'g', 'a', 'n', 'i', 'z', 'a', 't', 'i', 'o', 'n', 'a', 'l', 'U', 'n', 'i', 't', 'N', 'a', 'm', 'e'], defs := [Rfc2459.X520OrganizationalUnitName, Rfc3280.X520OrganizationalUnitName, Rfc5280.X520OrganizationalUnitName] },
   { name := ['X', '5', '2', '0', 'P', 's', 'e', 'u', 'd', 'o', 'n', 'y', 'm'], defs := [Rfc3280.X520Pseudonym, Rfc5280.X520Pseudonym] },
   { name := ['X', '5', '2', '0', 'S', 'e', 'r', 'i', 'a', 'l', 'N', 'u', 'm', 'b', 'e', 'r'], defs := [Rfc5280.X520SerialNumber, Rfc3280.X520SerialNumber] },
   { name := ['X', '5', '2', '0', 'S', 't', 'a', 't', 'e', 'O', 'r', 'P', 'r', 'o', 'v', 'i', 'n', 'c', 'e', 'N', 'a', 'm', 'e'], defs := [Rfc2459.X520StateOrProvinceName, Rfc3280.X520StateOrProvinceName, Rfc5280.X520StateOrProvinceName] },
   { name := ['X', '5', '2', '0', 'T', 'i', 't', 'l', 'e'], defs := [Rfc2459.X520Title, Rfc3280.X520Title, Rfc5280.X520Title] },
   { name := ['X', '5', '2', '0', 'c', 'o', 'u', 'n', 't', 'r', 'y', 'N', 'a', 'm', 'e'], defs := [Rfc2459.X520countryName, Rfc5280.X520countryName, Rfc3280.X520countryName] },
   { name := ['X', '5', '2', '0', 'd', 'n', 'Q', 'u', 'a', 'l', 'i', 'f', 'i', 'e', 'r'], defs := [Rfc2459.X520dnQualifier, Rfc3280.X520dnQualifier, Rfc5280.X520dnQualifier] },
   { name := ['X', '5', '2', '0', 'n', 'a', 'm', 'e'], defs := [Rfc2459.X520name, Rfc3280.X520name, Rfc5280.X520name] },
   { name := ['X', '9', '_', 'S', 'y', 'm', 'm', 'e', 't', 'r', 'i', 'c', 'K', 'e', 'y', 'W', 'r', 'a', 'p', 'p', 'i', 'n', 'g', 'S', 'c', 'h', 'e', 'm', 'e'], defs := [Rfc5280.AlgorithmIdentifier] },
   { name := ['X', 'm', 'p', 'p', 'A', 'd', 'd', 'r'], defs := [Rfc6120.XmppAddr] },
   { name := ['_', 'B', 'i', 'n', 'd', 'V', 'a', 'l', 'u', 'e'], defs := [Rfc1905._BindValue] },
   { name := ['_', 'R', 'e', 'q', 'u', 'e', 's', 't', 'B', 'a', 's', 'e'], defs := [Rfc1157._RequestBase] },
   { name := ['a', 't', '_', 'p', 's', 'k', 'c', '_', 'a', 'l', 'g', 'o', 'r', 'i', 't', 'h', 'm'], defs := [Rfc6031.at_pskc_algorithm] },
   { name := ['a', 't', '_', 'p', 's', 'k', 'c', '_', 'a', 'l', 'g', 'o', 'r', 'i', 't', 'h', 'm', 'P', 'a', 'r', 'a', 'm', 'e', 't', 'e', 'r', 's'], defs := [Rfc6031.PSKCAlgorithmParameters] },
   { name := ['a', 't', '_', 'p', 's', 'k', 'c', '_', 'c', 'o', 'u', 'n', 't', 'e', 'r'], defs := [Rfc6031.at_pskc_counter] },
   { name := ['a', 't', '_', 'p', 's', 'k', 'c', '_', 'd', 'e', 'v', 'i', 'c', 'e', 'B', 'i', 'n', 'd', 'i', 'n', 'g'], defs := [Rfc6031.at_pskc_deviceBinding] },
   { name := ['a', 't', '_', 'p', 's', 'k', 'c', '_', 'd', 'e', 'v', 'i', 'c', 'e', 'E', 'x', 'p', 'i', 'r', 'y', 'D', 'a', 't', 'e'], defs := [Rfc6031.at_pskc_deviceExpiryDate] },
   { name := ['a', 't', '_', 'p', 's', 'k', 'c', '_', 'd', 'e', 'v', 'i', 'c', 'e', 'S', 't', 'a', 'r', 't', 'D', 'a', 't', 'e'], defs := [Rfc6031.at_pskc_deviceStartDate] },
   { name := ['a', 't', '_', 'p', 's', 'k', 'c', '_', 'd', 'e', 'v', 'i', 'c', 'e', 'U', 's', 'e', 'r', 'I', 'd'], defs := [Rfc6031.at_pskc_deviceUserId] },
   { name := ['a', 't', '_', 'p', 's', 'k', 'c', '_', 'f', 'r', 'i', 'e', 'n', 'd', 'l', 'y', 'N', 'a', 'm', 'e'], defs := [Rfc6031.FriendlyName] },
   { name := ['a', 't', '_', 'p', 's', 'k', 'c', '_', 'i', 's', 's', 'u', 'e', 'N', 'o'], defs := [Rfc6031.at_pskc_issueNo] },
   { name := ['a', 't', '_', 'p', 's', 'k', 'c', '_', 'i', 's', 's', 'u', 'e', 'r'], defs := [Rfc6031.at_pskc_issuer] },
   { name := ['a', 't', '_', 'p', 's', 'k', 'c', '_', 'k', 'e', 'y', 'E', 'x', 'p', 'i', 'r', 'y', 'D', 'a', 't', 'e'], defs := [Rfc6031.at_pskc_keyExpiryDate] }]

def block32 : List Group :=
  [{ name := ['a', 't', '_', 'p', 's', 'k', 'c', '_', 'k', 'e', 'y', 'I', 'd'], defs := [Rfc6031.at_pskc_keyId] },
   { name := ['a', 't', '_', 'p', 's', 'k', 'c', '_', 'k', 'e', 'y', 'P', 'r', 'o', 'f', 'i', 'l', 'e', 'I', 'd'], defs := [Rfc6031.at_pskc_keyProfileId] },
   { name := ['a', 't', '_', 'p', 's', 'k', 'c', '_', 'k', 'e', 'y', 'R', 'e', 'f', 'e', 'r', 'e', 'n', 'c', 'e'], defs := [Rfc6031.at_pskc_keyReference] },
   { name := ['a', 't', '_', 'p', 's', 'k', 'c', '_', 'k', 'e', 'y', 'S', 't', 'a', 'r', 't', 'D', 'a', 't', 'e'], defs := [Rfc6031.at_pskc_keyStartDate] },
   { name := ['a', 't', '_', 'p', 's', 'k', 'c', '_', 'k', 'e', 'y', 'U', 's', 'a', 'g', 'e'], defs := [Rfc6031.PSKCKeyUsages] },
   { name := ['a', 't', '_', 'p', 's', 'k', 'c', '_', 'k', 'e', 'y', 'U', 's', 'e', 'r', 'I', 'd'], defs := [Rfc6031.at_pskc_keyUserId] },
   { name := ['a', 't', '_', 'p', 's', 'k', 'c', '_', 'm', 'a', 'n', 'u', 'f', 'a', 'c', 't', 'u', 'r', 'e', 'r'], defs := [Rfc6031.at_pskc_manufacturer] },
   { name := ['a', 't', '_', 'p', 's', 'k', 'c', '_', 'm', 'o', 'd', 'e', 'l'], defs := [Rfc6031.at_pskc_model] },
   { name := ['a', 't', '_', 'p', 's', 'k', 'c', '_', 'm', 'o', 'd', 'u', 'l', 'e', 'I', 'd'], defs := [Rfc6031.at_pskc_moduleId] },
   { name := ['a', 't', '_', 'p', 's', 'k', 'c', '_', 'n', 'u', 'm', 'b', 'e', 'r', 'O', 'f', 'T', 'r', 'a', 'n', 's', 'a', 'c', 't', 'i', 'o', 'n', 's'], defs := [Rfc6031.at_pskc_numberOfTransactions] },
   { name := ['a', 't', '_', 'p', 's', 'k', 'c', '_', 'p', 'i', 'n', 'P', 'o', 'l', 'i', 'c', 'y'], defs := [Rfc6031.PINPolicy] },
   { name := ['a', 't', '_', 'p', 's', 'k', 'c', '_', 's', 'e', 'r', 'i', 'a', 'l', 'N', 'o'], defs := [Rfc6031.at_pskc_serialNo] },
   { name := ['a', 't', '_', 'p', 's', 'k', 'c', '_', 't', 'i', 'm', 'e'], defs := [Rfc6019.BinaryTime] },
   { name := ['a', 't', '_', 'p', 's', 'k', 'c', '_', 't', 'i', 'm', 'e', 'D', 'r', 'i', 'f', 't'], defs := [Rfc6031.at_pskc_timeDrift] },
   { name := ['a', 't', '_', 'p', 's', 'k', 'c', '_', 't', 'i', 'm', 'e', 'I', 'n', 't', 'e', 'r', 'v', 'a', 'l'], defs := [Rfc6031.at_pskc_timeInterval] },
   { name := ['a', 't', '_', 'p', 's', 'k', 'c', '_', 'v', 'a', 'l', 'u', 'e', 'M', 'A', 'C'], defs := [Rfc6031.ValueMac] },
   { name := ['s', 'i', 'r', 'e', 'n', '_', 'd', 'n'], defs := [Rfc7191.SIREntityName] }]

/-- All names, in order. -/
def blocks : List (List Group) :=
  [block0, block1, block2, block3, block4, block5, block6, block7, block8, block9, block10, block11, block12, block13, block14, block15, block16, block17, block18, block19, block20, block21, block22, block23, block24, block25, block26, block27, block28, block29, block30, block31, block32]

def rfc1155 : List (Nat × Nat × Nat) :=
  [(18, 4, 0), (27, 1, 0), (14, 11, 0), (17, 22, 0), (7, 1, 0), (11, 22, 0), (29, 15, 0), (18, 13, 0), (1, 4, 0), (18, 5, 0)]

def rfc1157 : List (Nat × Nat × Nat) :=
  [(31, 2, 0), (6, 4, 0), (23, 14, 0), (9, 31, 0), (9, 29, 0), (30, 26, 0), (30, 27, 0), (31, 20, 0), (12, 5, 0), (12, 4, 0), (12, 6, 0), (25, 28, 0), (29, 24, 0), (20, 19, 0), (17, 4, 0)]

def rfc1901 : List (Nat × Nat × Nat) :=
  [(17, 4, 1)]

def rfc1902 : List (Nat × Nat × Nat) :=
  [(14, 8, 0), (14, 9, 0), (18, 9, 0), (14, 11, 1), (7, 2, 0), (11, 23, 0), (30, 14, 0), (29, 15, 1), (18, 13, 1), (7, 3, 0), (3, 1, 0), (18, 4, 1), (27, 1, 1), (1, 4, 1), (18, 5, 1)]

def rfc1905 : List (Nat × Nat × Nat) :=
  [(31, 19, 0), (30, 26, 1), (30, 27, 1), (19, 15, 0), (3, 10, 0), (12, 5, 1), (12, 4, 1), (23, 20, 0), (25, 28, 1), (12, 1, 0), (14, 5, 0), (24, 20, 0), (23, 12, 0), (19, 16, 0)]

def rfc2251 : List (Nat × Nat × Nat) :=
  [(16, 8, 0), (16, 6, 0), (16, 4, 0), (23, 11, 0), (2, 0, 0), (1, 26, 0), (1, 27, 0), (2, 4, 0), (1, 7, 0), (2, 5, 0), (1, 18, 0), (17, 3, 0), (6, 30, 0), (6, 31, 0), (16, 9, 0), (23, 5, 0), (24, 29, 0), (2, 14, 0), (2, 29, 0), (20, 15, 0), (25, 3, 0), (17, 2, 0), (27, 20, 0), (10, 25, 0), (10, 24, 0), (10, 23, 0), (25, 1, 0), (30, 7, 0), (2, 30, 0), (16, 7, 0), (25, 4, 0), (25, 2, 0), (2, 2, 0), (17, 13, 0), (17, 14, 0), (1, 28, 0), (0, 22, 0), (0, 23, 0), (8, 0, 0), (8, 1, 0), (17, 11, 0), (17, 12, 0), (6, 10, 0), (6, 11, 0), (0, 14, 0), (10, 6, 0), (10, 7, 0), (17, 8, 0), (16, 5, 0)]

def rfc2314 : List (Nat × Nat × Nat) :=
  [(31, 2, 1), (2, 8, 0), (5, 14, 0), (26, 9, 0), (26, 10, 0), (5, 13, 0)]

def rfc2315 : List (Nat × Nat × Nat) :=
  [(1, 18, 1), (31, 2, 2), (2, 5, 1), (6, 25, 0), (6, 19, 0), (9, 12, 0), (9, 13, 0), (9, 14, 0), (8, 7, 0), (8, 8, 0), (8, 5, 0), (6, 22, 0), (8, 11, 0), (14, 13, 0), (15, 6, 0), (9, 16, 0), (23, 2, 0), (23, 3, 0), (2, 8, 1), (10, 2, 0), (26, 10, 0), (26, 9, 1), (10, 1, 0), (10, 3, 0), (10, 4, 0), (25, 25, 0), (4, 2, 0), (28, 11, 0), (5, 5, 0), (5, 6, 0), (8, 9, 0), (9, 15, 0), (26, 24, 0), (26, 25, 0), (26, 18, 0), (9, 26, 0), (8, 10, 0), (26, 20, 0), (7, 26, 0)]

def rfc2437 : List (Nat × Nat × Nat) :=
  [(31, 2, 3), (22, 23, 0), (22, 24, 0), (22, 20, 0)]

def rfc2459 : List (Nat × Nat × Nat) :=
  [(30, 11, 0), (2, 22, 0), (30, 5, 0), (31, 16, 0), (31, 6, 0), (31, 7, 0), (31, 12, 0), (31, 8, 0), (31, 9, 0), (31, 13, 0), (31, 15, 0), (31, 14, 0), (20, 29, 0), (7, 22, 0), (8, 12, 0), (0, 30, 0), (8, 21, 0), (30, 23, 0), (8, 18, 0), (8, 19, 0), (28, 30, 0), (28, 31, 0), (29, 5, 0), (21, 25, 0), (8, 22, 0), (10, 5, 0), (19, 14, 0), (16, 10, 0), (30, 10, 0), (21, 17, 0), (21, 14, 0), (27, 13, 0), (30, 8, 0), (20, 25, 0), (20, 26, 0), (10, 11, 0), (20, 28, 0), (20, 27, 0), (10, 12, 0), (21, 16, 0), (20, 24, 0), (19, 13, 0), (29, 1, 0), (29, 2, 0), (29, 3, 0), (29, 0, 0), (28, 29, 0), (6, 2, 0), (10, 9, 0), (10, 10, 0), (3, 7, 0), (3, 8, 0), (18, 16, 0), (18, 17, 0), (20, 23, 0), (17, 28, 0), (18, 15, 0), (21, 27, 0), (29, 4, 0), (31, 5, 0), (17, 22, 1), (0, 24, 0), (7, 5, 0), (3, 9, 0), (18, 2, 0), (14, 10, 0), (13, 21, 0), (4, 5, 0), (4, 4, 0), (2, 23, 0), (15, 25, 0), (10, 0, 0), (22, 27, 0), (27, 6, 0), (21, 2, 0), (2, 25, 0), (8, 30, 0), (2, 24, 0), (8, 13, 0), (17, 24, 0), (30, 19, 0), (3, 29, 0), (21, 7, 0), (4, 19, 0), (21, 8, 0), (21, 3, 0), (5, 4, 0), (21, 5, 0), (21, 6, 0), (22, 0, 0), (15, 31, 0), (15, 10, 0), (27, 17, 0), (2, 4, 1), (2, 0, 1), (2, 1, 0), (1, 18, 2), (27, 15, 0), (23, 10, 0), (22, 17, 0), (17, 18, 0), (5, 7, 0), (1, 1, 0), (11, 28, 0), (11, 29, 0), (0, 19, 0), (2, 19, 0), (2, 20, 0), (8, 16, 0), (8, 15, 0), (4, 0, 0), (14, 15, 0), (11, 30, 0), (11, 31, 0), (17, 19, 0), (5, 1, 0), (27, 14, 0), (14, 12, 0), (10, 8, 0), (10, 15, 0), (27, 18, 0), (30, 9, 0), (29, 11, 0), (30, 24, 0), (31, 2, 4), (28, 9, 0), (4, 30, 0), (23, 30, 0), (28, 8, 0), (5, 2, 0)]

def rfc2511 : List (Nat × Nat × Nat) :=
  [(11, 28, 1), (30, 4, 0), (22, 3, 0), (4, 14, 0), (18, 10, 0), (15, 8, 0), (9, 21, 0), (9, 16, 1), (19, 23, 0), (27, 4, 0), (20, 1, 0), (2, 17, 0), (23, 6, 0), (27, 19, 0), (20, 8, 0), (19, 12, 0), (20, 5, 0), (20, 10, 0), (20, 9, 0), (22, 1, 0), (6, 31, 1), (18, 14, 0), (4, 29, 0), (4, 25, 0), (4, 22, 0), (4, 24, 0), (4, 23, 0)]

def rfc2560 : List (Nat × Nat × Nat) :=
  [(4, 5, 1), (11, 28, 2), (0, 18, 0), (1, 5, 0), (30, 12, 0), (23, 31, 0), (4, 13, 0), (4, 28, 0), (27, 5, 0), (15, 9, 0), (23, 15, 0), (31, 2, 5), (23, 18, 0), (2, 26, 0), (23, 17, 0), (17, 31, 0), (17, 30, 0), (23, 13, 0), (26, 9, 2), (28, 12, 0), (17, 29, 0)]

def rfc2631 : List (Nat × Nat × Nat) :=
  [(15, 27, 0), (18, 27, 0)]

def rfc2634 : List (Nat × Nat × Nat) :=
  [(6, 25, 1), (14, 13, 1), (27, 17, 1), (21, 3, 1), (11, 29, 1), (5, 7, 1), (13, 10, 0), (14, 14, 0), (9, 0, 0), (26, 29, 0), (9, 22, 0), (16, 26, 0), (16, 24, 0), (16, 25, 0), (9, 2, 0), (25, 11, 0), (25, 12, 0), (25, 9, 0), (25, 8, 0), (9, 3, 0), (9, 27, 0), (6, 21, 0), (6, 23, 0), (17, 15, 0), (6, 20, 0), (0, 31, 0), (22, 30, 0), (22, 29, 0), (9, 4, 0), (22, 28, 0)]

def rfc2876 : List (Nat × Nat × Nat) :=
  [(27, 7, 0)]

def rfc2985 : List (Nat × Nat × Nat) :=
  [(0, 30, 1), (1, 18, 3), (9, 7, 0), (10, 15, 1), (29, 11, 1), (31, 14, 1), (31, 11, 0), (6, 22, 1), (6, 25, 1), (7, 4, 0), (17, 7, 0), (26, 24, 1), (27, 0, 0), (9, 20, 0), (19, 17, 0), (2, 0, 2), (2, 4, 2), (2, 7, 0), (27, 3, 0), (27, 2, 0), (3, 23, 0), (3, 27, 0), (8, 12, 1), (19, 22, 0), (11, 27, 0), (22, 26, 0), (25, 22, 0), (10, 14, 0), (1, 30, 0), (11, 3, 0), (24, 18, 0), (24, 16, 0)]

def rfc2986 : List (Nat × Nat × Nat) :=
  [(2, 0, 3), (2, 4, 3), (2, 1, 1), (1, 18, 3), (23, 10, 1), (22, 17, 1), (17, 18, 1), (0, 30, 1), (27, 18, 1), (2, 8, 2), (5, 14, 1), (5, 13, 1)]

def rfc3058 : List (Nat × Nat × Nat) :=
  [(13, 24, 0)]

def rfc3114 : List (Nat × Nat × Nat) :=
  [(1, 0, 0), (4, 9, 0), (31, 3, 0), (25, 10, 0)]

def rfc3125 : List (Nat × Nat × Nat) :=
  [(0, 30, 1), (1, 18, 3), (2, 0, 3), (2, 1, 1), (2, 4, 3), (4, 30, 1), (5, 2, 1), (8, 12, 2), (11, 28, 3), (11, 29, 1), (17, 18, 1), (21, 3, 1), (4, 19, 1), (0, 17, 0), (26, 5, 0), (26, 4, 0), (0, 25, 0), (0, 28, 0), (0, 27, 0), (2, 6, 0), (2, 3, 0), (1, 25, 0), (13, 23, 0), (27, 6, 1), (21, 2, 1), (2, 24, 1), (11, 30, 1), (11, 31, 1), (17, 19, 1), (20, 18, 0), (5, 9, 0), (5, 10, 0), (9, 23, 0), (23, 24, 0), (4, 27, 0), (1, 31, 0), (3, 24, 0), (4, 15, 0), (4, 20, 0), (8, 3, 0), (29, 17, 0), (26, 27, 0), (16, 31, 0), (31, 1, 0), (26, 21, 0), (26, 28, 0), (5, 31, 0), (10, 21, 0), (5, 30, 0), (25, 19, 0), (5, 28, 0), (5, 29, 0), (6, 3, 0), (21, 4, 0), (26, 6, 0), (26, 7, 0), (26, 31, 0), (26, 16, 0), (26, 8, 0), (26, 11, 0)]

def rfc3161 : List (Nat × Nat × Nat) :=
  [(10, 15, 1), (0, 30, 1), (11, 28, 3), (6, 22, 1), (19, 28, 0), (0, 20, 0), (17, 9, 0), (19, 27, 0), (20, 3, 0), (20, 4, 0), (28, 15, 0), (28, 17, 0), (29, 12, 0), (29, 14, 0), (29, 13, 0)]

def rfc3274 : List (Nat × Nat × Nat) :=
  [(6, 16, 0), (6, 15, 0)]

def rfc3279 : List (Nat × Nat × Nat) :=
  [(7, 23, 0), (8, 19, 1), (8, 21, 1), (22, 24, 1), (7, 19, 0), (30, 23, 1), (8, 18, 1), (14, 23, 0), (10, 20, 0), (8, 24, 0), (21, 26, 0), (5, 22, 0), (29, 25, 0), (20, 21, 0), (10, 19, 0), (8, 27, 0), (7, 14, 0), (8, 25, 0), (8, 26, 0), (9, 5, 0)]

def rfc3280 : List (Nat × Nat × Nat) :=
  [(18, 16, 1), (18, 17, 1), (2, 0, 4), (19, 14, 1), (20, 27, 1), (28, 30, 1), (21, 25, 1), (0, 30, 2), (30, 9, 1), (10, 8, 1), (10, 15, 2), (5, 7, 2), (27, 18, 2), (29, 11, 2), (30, 24, 1), (31, 2, 6), (2, 4, 4), (2, 1, 2), (23, 10, 2), (22, 17, 2), (17, 18, 2), (28, 9, 1), (4, 30, 2), (29, 0, 1), (7, 5, 1), (10, 5, 1), (31, 12, 1), (31, 8, 1), (10, 12, 1), (17, 28, 1), (18, 15, 1), (0, 24, 1), (21, 27, 1), (20, 23, 1), (29, 4, 1), (31, 5, 1), (17, 22, 2), (3, 9, 1), (3, 7, 1), (3, 8, 1), (10, 9, 1), (10, 10, 1), (18, 2, 1), (31, 13, 1), (9, 7, 1), (28, 29, 1), (16, 10, 1), (27, 13, 1), (8, 12, 3), (8, 17, 0), (19, 13, 1), (21, 17, 1), (8, 14, 0), (6, 2, 1), (31, 11, 1), (29, 1, 1), (29, 3, 1), (28, 31, 1), (28, 8, 1), (20, 24, 1), (31, 16, 1), (29, 5, 1), (31, 9, 1), (31, 7, 1), (20, 28, 1), (21, 16, 1), (31, 14, 2), (21, 14, 1), (20, 25, 1), (5, 2, 2), (20, 26, 1), (29, 2, 1), (10, 11, 1), (31, 6, 1), (31, 15, 1), (1, 18, 4), (30, 8, 1), (30, 10, 1), (31, 10, 0), (8, 30, 1), (1, 1, 1), (11, 28, 4), (11, 29, 2), (14, 12, 1), (4, 19, 2), (21, 6, 1), (21, 7, 1), (27, 15, 1), (22, 27, 1), (8, 16, 1), (8, 15, 1), (21, 8, 1), (21, 3, 2), (5, 4, 1), (13, 21, 1), (15, 25, 1), (10, 0, 1), (27, 14, 1), (2, 25, 1), (27, 6, 2), (14, 7, 0), (4, 4, 1), (2, 23, 1), (15, 10, 1), (2, 20, 1), (4, 1, 0), (11, 2, 0), (4, 5, 2), (2, 24, 2), (11, 30, 2), (11, 31, 2), (17, 19, 2), (0, 19, 1), (2, 19, 1), (3, 29, 1), (8, 13, 1), (17, 24, 1), (30, 19, 1), (22, 0, 1), (5, 1, 1), (14, 10, 1), (27, 16, 0), (15, 31, 1), (21, 2, 2), (27, 17, 2), (14, 15, 1)]

def rfc3281 : List (Nat × Nat × Nat) :=
  [(18, 3, 0), (14, 14, 1), (28, 23, 0), (28, 22, 0), (28, 26, 0), (22, 6, 0), (5, 24, 0), (25, 9, 1), (5, 26, 0), (1, 12, 0), (1, 17, 0), (0, 0, 0), (1, 11, 0), (30, 21, 0), (1, 10, 0), (13, 22, 0), (1, 20, 0), (1, 19, 0), (24, 0, 0), (0, 1, 0), (27, 21, 0), (14, 1, 0)]

def rfc3370 : List (Nat × Nat × Nat) :=
  [(0, 30, 1), (7, 19, 0), (8, 18, 1), (7, 18, 0), (8, 19, 1), (8, 21, 1), (22, 24, 1), (30, 23, 1), (3, 12, 0), (16, 2, 0), (22, 14, 0), (22, 12, 0), (19, 10, 0), (22, 13, 0), (22, 15, 0), (8, 20, 0)]

def rfc3412 : List (Nat × Nat × Nat) :=
  [(24, 30, 0), (24, 31, 0), (13, 15, 0), (24, 21, 0)]

def rfc3414 : List (Nat × Nat × Nat) :=
  [(30, 20, 0)]

def rfc3447 : List (Nat × Nat × Nat) :=
  [(22, 23, 1), (18, 31, 0), (19, 0, 0)]

def rfc3537 : List (Nat × Nat × Nat) :=
  []

def rfc3560 : List (Nat × Nat × Nat) :=
  [(22, 20, 1)]

def rfc3565 : List (Nat × Nat × Nat) :=
  [(0, 30, 1), (0, 7, 0)]

def rfc3657 : List (Nat × Nat × Nat) :=
  [(4, 7, 0), (4, 6, 0)]

def rfc3709 : List (Nat × Nat × Nat) :=
  [(13, 11, 0), (16, 14, 0), (16, 12, 0), (16, 11, 0), (16, 19, 0), (16, 18, 0), (16, 17, 0), (16, 16, 0), (16, 13, 0), (16, 21, 0), (16, 20, 0), (18, 29, 0), (16, 15, 0)]

def rfc3739 : List (Nat × Nat × Nat) :=
  [(0, 30, 1), (2, 0, 3), (8, 12, 2), (11, 28, 3), (7, 29, 0), (21, 0, 0), (11, 26, 0), (7, 6, 0), (7, 7, 0), (21, 19, 0), (30, 3, 0), (2, 31, 0), (3, 0, 0), (17, 20, 0), (22, 10, 0), (22, 11, 0), (25, 20, 0)]

def rfc3770 : List (Nat × Nat × Nat) :=
  [(24, 25, 0), (24, 26, 0)]

def rfc3779 : List (Nat × Nat × Nat) :=
  [(13, 26, 0), (13, 30, 0), (13, 29, 0), (13, 27, 0), (13, 28, 0), (13, 25, 0), (0, 9, 0), (0, 13, 0), (0, 10, 0), (0, 11, 0), (0, 12, 0)]

def rfc3820 : List (Nat × Nat × Nat) :=
  [(22, 5, 0), (22, 7, 0), (22, 4, 0)]

def rfc3852 : List (Nat × Nat × Nat) :=
  [(2, 4, 5), (1, 18, 5), (26, 19, 0), (19, 6, 0), (23, 26, 0), (23, 27, 0), (18, 28, 0), (15, 6, 1), (9, 16, 2), (3, 28, 0), (14, 24, 0), (14, 25, 0), (15, 1, 0), (20, 17, 0), (19, 1, 0), (14, 13, 2), (27, 17, 3), (23, 4, 0), (14, 29, 0), (22, 31, 0), (23, 0, 0), (30, 18, 0), (18, 20, 0), (18, 18, 0), (14, 30, 0), (23, 1, 0), (15, 29, 0), (23, 2, 1), (23, 3, 1), (8, 7, 1), (26, 9, 3), (26, 23, 0), (30, 13, 0), (6, 25, 2), (9, 12, 1), (6, 19, 1), (9, 13, 1), (9, 14, 1), (8, 8, 1), (9, 9, 0), (8, 5, 1), (8, 11, 1), (6, 22, 2), (30, 6, 0), (10, 2, 1), (26, 10, 1), (10, 1, 1), (18, 22, 0), (1, 24, 0), (1, 13, 0), (1, 21, 0), (1, 23, 0), (5, 0, 0), (5, 8, 0), (17, 5, 0), (30, 15, 0), (26, 17, 0), (26, 24, 2), (26, 25, 1), (26, 20, 1), (17, 6, 0), (17, 7, 1), (29, 11, 3), (18, 19, 0), (2, 9, 0), (2, 12, 0), (9, 26, 1), (7, 4, 1), (10, 3, 1), (27, 0, 1)]

def rfc4010 : List (Nat × Nat × Nat) :=
  [(25, 14, 0), (25, 13, 0), (25, 15, 0)]

def rfc4043 : List (Nat × Nat × Nat) :=
  [(20, 22, 0)]

def rfc4055 : List (Nat × Nat × Nat) :=
  [(22, 24, 2), (13, 12, 0), (17, 1, 0), (22, 20, 1), (22, 25, 0)]

def rfc4073 : List (Nat × Nat × Nat) :=
  [(6, 17, 0), (6, 29, 0)]

def rfc4108 : List (Nat × Nat × Nat) :=
  [(13, 9, 0), (13, 8, 0), (6, 6, 0), (21, 22, 0), (21, 20, 0), (7, 13, 0), (21, 21, 0), (10, 29, 0), (30, 28, 0), (31, 4, 0), (10, 27, 0), (6, 8, 0), (14, 2, 0), (14, 3, 0), (7, 30, 0), (28, 24, 0), (10, 26, 0), (10, 31, 0), (10, 16, 0), (10, 28, 0), (10, 17, 0), (10, 30, 0), (11, 0, 0), (13, 7, 0)]

def rfc4210 : List (Nat × Nat × Nat) :=
  [(15, 10, 2), (3, 21, 0), (18, 0, 0), (4, 10, 0), (19, 28, 0), (21, 9, 0), (21, 11, 0), (14, 4, 0), (11, 25, 0), (11, 24, 0), (19, 25, 0), (3, 30, 0), (3, 11, 0), (23, 22, 0), (23, 25, 0), (4, 16, 0), (5, 16, 0), (20, 7, 0), (5, 17, 0), (20, 3, 1), (19, 27, 1), (20, 4, 1), (9, 30, 0), (4, 28, 1), (4, 12, 0), (23, 21, 0), (23, 23, 0), (15, 26, 0), (4, 26, 0), (4, 21, 0), (20, 6, 0), (18, 1, 0), (17, 21, 0), (7, 17, 0), (19, 12, 1), (20, 0, 0), (19, 24, 0), (19, 29, 0), (22, 2, 0), (19, 30, 0), (19, 31, 0), (21, 10, 0), (21, 12, 0)]

def rfc4211 : List (Nat × Nat × Nat) :=
  [(27, 4, 1), (30, 4, 1), (20, 5, 1), (20, 10, 1), (20, 9, 1), (2, 8, 3), (21, 31, 0), (9, 21, 1), (9, 16, 3), (15, 8, 1), (19, 23, 1), (22, 3, 1), (2, 17, 1), (27, 19, 1), (2, 1, 3), (20, 8, 1), (22, 1, 1), (18, 14, 1), (4, 29, 1), (6, 31, 2), (4, 25, 1), (4, 24, 1), (4, 23, 1), (4, 22, 1), (4, 14, 1), (18, 10, 1), (20, 1, 1), (9, 8, 0), (19, 12, 2), (23, 6, 1)]

def rfc4334 : List (Nat × Nat × Nat) :=
  [(24, 25, 1), (24, 26, 1)]

def rfc4357 : List (Nat × Nat × Nat) :=
  [(0, 30, 1), (12, 13, 0), (12, 7, 0), (12, 12, 0), (12, 10, 0), (12, 8, 0), (12, 9, 0), (12, 16, 0), (12, 14, 0), (12, 15, 0), (12, 17, 0), (12, 18, 0), (12, 19, 0), (12, 20, 0), (12, 22, 0), (12, 24, 0), (12, 23, 0), (12, 25, 0), (12, 26, 0), (12, 29, 0), (12, 28, 0), (12, 31, 0), (12, 30, 0), (13, 2, 0), (13, 3, 0), (13, 4, 0)]

def rfc4387 : List (Nat × Nat × Nat) :=
  []

def rfc4476 : List (Nat × Nat × Nat) :=
  [(21, 7, 2), (21, 8, 2), (30, 19, 2), (0, 3, 0), (0, 2, 0), (0, 16, 0), (21, 3, 3), (0, 15, 0)]

def rfc4490 : List (Nat × Nat × Nat) :=
  [(12, 13, 0), (12, 8, 0), (12, 26, 0), (12, 20, 0), (27, 18, 1), (12, 11, 0), (13, 1, 0), (13, 0, 0), (12, 27, 0), (12, 21, 0)]

def rfc4491 : List (Nat × Nat × Nat) :=
  [(12, 19, 0), (12, 20, 0), (12, 25, 0), (12, 26, 0)]

def rfc4683 : List (Nat × Nat × Nat) :=
  [(13, 13, 0), (24, 7, 0), (9, 18, 0)]

def rfc4985 : List (Nat × Nat × Nat) :=
  [(24, 24, 0)]

def rfc5035 : List (Nat × Nat × Nat) :=
  [(6, 25, 1), (14, 13, 1), (27, 17, 1), (0, 30, 1), (21, 3, 1), (11, 29, 1), (5, 7, 1), (13, 10, 0), (14, 14, 0), (9, 0, 0), (26, 29, 0), (9, 1, 0), (26, 30, 0), (9, 22, 0), (16, 26, 0), (16, 24, 0), (16, 25, 0), (9, 2, 0), (25, 11, 0), (25, 12, 0), (25, 9, 0), (25, 8, 0), (9, 3, 0), (9, 27, 0), (6, 21, 0), (6, 23, 0), (17, 15, 0), (6, 20, 0), (0, 31, 0), (22, 30, 0), (22, 29, 0), (9, 4, 0), (22, 28, 0)]

def rfc5083 : List (Nat × Nat × Nat) :=
  [(2, 10, 0)]

def rfc5084 : List (Nat × Nat × Nat) :=
  [(0, 5, 0), (0, 6, 0), (3, 13, 0), (11, 4, 0)]

def rfc5126 : List (Nat × Nat × Nat) :=
  [(6, 22, 1), (6, 25, 1), (26, 20, 2), (9, 9, 1), (26, 24, 1), (17, 7, 0), (27, 0, 0), (7, 4, 0), (26, 29, 0), (14, 14, 0), (6, 23, 0), (6, 21, 0), (4, 30, 1), (0, 30, 1), (5, 2, 1), (17, 18, 1), (1, 18, 3), (11, 29, 1), (11, 28, 3), (21, 3, 1), (8, 12, 2), (1, 19, 1), (2, 26, 1), (23, 15, 1), (29, 14, 0), (18, 26, 0), (18, 25, 0), (18, 24, 0), (18, 21, 0), (19, 7, 0), (26, 0, 0), (25, 31, 0), (26, 1, 0), (26, 2, 0), (26, 12, 0), (26, 13, 0), (26, 11, 1), (8, 13, 2), (17, 24, 2), (24, 22, 0), (24, 23, 0), (5, 31, 1), (6, 1, 0), (6, 0, 0), (21, 15, 0), (26, 26, 0), (26, 14, 0), (6, 24, 0), (5, 23, 0), (5, 15, 0), (26, 22, 0), (6, 12, 0), (7, 9, 0), (7, 11, 0), (4, 3, 0), (18, 6, 0), (18, 8, 0), (18, 7, 0), (19, 2, 0), (19, 3, 0), (7, 10, 0), (6, 13, 0), (5, 11, 0), (19, 4, 0), (19, 5, 0), (23, 28, 0), (8, 31, 0), (29, 18, 0), (1, 6, 0), (1, 22, 0), (1, 29, 0)]

def rfc5208 : List (Nat × Nat × Nat) :=
  [(31, 2, 7), (15, 7, 0), (21, 30, 0), (9, 14, 2), (9, 20, 1), (21, 28, 0), (2, 8, 4), (21, 31, 1)]

def rfc5275 : List (Nat × Nat × Nat) :=
  [(0, 30, 1), (4, 30, 1), (11, 28, 3), (5, 8, 1), (14, 24, 1), (23, 3, 2), (24, 18, 1), (1, 19, 1), (5, 12, 0), (11, 10, 0), (11, 19, 0), (11, 8, 0), (11, 14, 0), (11, 21, 0), (8, 2, 0), (11, 16, 0), (11, 7, 0), (11, 9, 0), (11, 17, 0), (11, 20, 0), (11, 18, 0), (11, 11, 0), (7, 28, 0), (11, 12, 0), (11, 5, 0), (11, 6, 0), (24, 12, 0), (24, 16, 1), (11, 15, 0), (11, 13, 0), (24, 13, 0)]

def rfc5280 : List (Nat × Nat × Nat) :=
  [(29, 5, 2), (10, 8, 2), (10, 15, 1), (30, 8, 2), (31, 8, 2), (21, 16, 2), (8, 17, 1), (2, 0, 3), (19, 14, 2), (20, 28, 2), (28, 30, 2), (28, 31, 2), (31, 7, 2), (20, 23, 2), (18, 16, 2), (31, 2, 8), (5, 7, 1), (0, 30, 1), (29, 11, 1), (2, 4, 3), (2, 1, 1), (23, 10, 1), (22, 17, 1), (17, 18, 1), (28, 8, 2), (5, 2, 1), (20, 25, 2), (10, 9, 2), (31, 15, 2), (21, 17, 2), (30, 9, 2), (30, 24, 2), (27, 18, 1), (28, 9, 2), (31, 16, 2), (31, 5, 2), (17, 22, 3), (20, 24, 2), (31, 10, 1), (0, 24, 2), (21, 25, 2), (10, 5, 2), (29, 0, 2), (29, 4, 2), (27, 13, 2), (10, 10, 2), (10, 11, 2), (31, 9, 2), (16, 10, 2), (31, 13, 2), (31, 12, 2), (31, 14, 1), (31, 11, 0), (1, 18, 3), (10, 12, 2), (9, 7, 0), (3, 7, 2), (3, 8, 2), (31, 6, 2), (28, 29, 2), (20, 27, 2), (17, 28, 2), (7, 5, 2), (18, 15, 2), (18, 17, 2), (21, 27, 2), (3, 9, 2), (18, 2, 2), (8, 14, 1), (20, 26, 2), (30, 10, 2), (19, 13, 2), (29, 3, 2), (21, 14, 2), (8, 12, 2), (6, 2, 2), (4, 30, 1), (29, 1, 2), (29, 2, 2), (27, 6, 3), (4, 5, 3), (22, 0, 2), (1, 1, 2), (8, 30, 2), (11, 28, 3), (2, 24, 3), (11, 30, 3), (11, 29, 1), (8, 16, 2), (22, 27, 2), (14, 15, 2), (0, 19, 2), (14, 12, 2), (8, 15, 2), (4, 1, 1), (11, 31, 3), (17, 19, 3), (27, 15, 2), (8, 13, 3), (17, 24, 3), (30, 19, 2), (21, 7, 2), (21, 8, 2), (4, 19, 3), (21, 3, 1), (5, 4, 2), (27, 14, 2), (2, 25, 2), (21, 6, 2), (14, 7, 1), (4, 4, 2), (2, 23, 2), (15, 10, 3), (2, 20, 2), (11, 2, 1), (2, 19, 2), (3, 29, 2), (27, 17, 4), (15, 25, 2), (10, 0, 2), (13, 21, 2), (27, 16, 1), (14, 10, 2), (15, 31, 2), (5, 1, 2), (21, 2, 3)]

def rfc5480 : List (Nat × Nat × Nat) :=
  [(7, 19, 0), (7, 23, 0), (30, 23, 1), (8, 18, 1), (8, 24, 0), (8, 27, 0), (14, 23, 0), (22, 24, 1), (7, 25, 0), (7, 24, 0), (8, 26, 1)]

def rfc5636 : List (Nat × Nat × Nat) :=
  [(6, 22, 1), (9, 9, 1), (30, 17, 0), (29, 16, 0), (3, 2, 0), (20, 16, 0), (29, 19, 0), (29, 20, 0), (29, 21, 0), (27, 24, 0), (27, 25, 0), (27, 26, 0)]

def rfc5639 : List (Nat × Nat × Nat) :=
  []

def rfc5649 : List (Nat × Nat × Nat) :=
  [(0, 30, 1)]

def rfc5652 : List (Nat × Nat × Nat) :=
  [(1, 13, 1), (1, 21, 1), (1, 23, 1), (2, 4, 6), (1, 18, 6), (26, 19, 1), (1, 24, 0), (18, 28, 1), (30, 6, 1), (26, 17, 1), (14, 13, 1), (27, 17, 1), (23, 4, 1), (14, 29, 1), (9, 16, 4), (22, 31, 1), (23, 0, 1), (17, 5, 1), (3, 28, 1), (18, 22, 1), (10, 2, 2), (26, 9, 4), (26, 10, 2), (10, 1, 2), (5, 0, 1), (5, 8, 1), (19, 6, 1), (23, 26, 1), (23, 27, 1), (18, 19, 1), (6, 25, 1), (9, 12, 2), (6, 19, 2), (9, 13, 2), (30, 13, 1), (15, 6, 2), (14, 24, 1), (14, 25, 1), (15, 1, 1), (20, 17, 1), (23, 1, 1), (15, 29, 1), (30, 18, 1), (18, 20, 1), (18, 18, 1), (14, 30, 1), (19, 1, 1), (23, 2, 2), (23, 3, 2), (9, 26, 2), (8, 7, 2), (9, 14, 3), (17, 6, 1), (30, 15, 1), (26, 23, 1), (26, 24, 1), (26, 25, 2), (7, 4, 0), (6, 22, 1), (9, 9, 1), (17, 7, 0), (2, 9, 1), (29, 11, 4), (2, 12, 1), (10, 3, 2), (8, 5, 2), (8, 11, 2), (8, 8, 2), (26, 20, 2), (27, 0, 0)]

def rfc5697 : List (Nat × Nat × Nat) :=
  [(0, 30, 1), (5, 7, 1), (11, 29, 1), (24, 5, 0), (24, 4, 0), (18, 23, 0)]

def rfc5751 : List (Nat × Nat × Nat) :=
  [(14, 13, 1), (23, 4, 1), (27, 17, 1), (24, 18, 1), (24, 16, 1), (24, 17, 0), (24, 19, 0)]

def rfc5752 : List (Nat × Nat × Nat) :=
  [(26, 3, 0), (17, 16, 0)]

def rfc5753 : List (Nat × Nat × Nat) :=
  [(0, 30, 1), (18, 20, 1), (30, 18, 1), (8, 24, 0), (8, 26, 1), (8, 27, 0), (13, 31, 0), (3, 12, 0), (16, 2, 0), (8, 23, 0), (16, 27, 0)]

def rfc5755 : List (Nat × Nat × Nat) :=
  [(6, 22, 1), (0, 30, 1), (1, 18, 3), (2, 19, 2), (2, 20, 2), (5, 7, 1), (4, 1, 1), (10, 15, 1), (10, 8, 2), (11, 29, 1), (11, 28, 3), (30, 9, 2), (1, 12, 1), (14, 14, 2), (18, 3, 1), (13, 22, 1), (30, 21, 1), (1, 10, 1), (1, 11, 1), (1, 20, 1), (1, 19, 1), (28, 23, 1), (28, 22, 1), (28, 26, 1), (22, 6, 1), (1, 17, 1), (0, 0, 1), (27, 21, 1), (14, 1, 1), (24, 0, 1), (5, 24, 1), (25, 9, 2), (5, 26, 1), (5, 27, 0), (0, 1, 1)]

def rfc5913 : List (Nat × Nat × Nat) :=
  [(2, 18, 0)]

def rfc5914 : List (Nat × Nat × Nat) :=
  [(4, 30, 1), (17, 18, 1), (10, 15, 1), (27, 18, 1), (28, 9, 2), (5, 4, 2), (15, 10, 3), (17, 19, 3), (4, 18, 0), (4, 17, 0), (30, 1, 0), (29, 31, 0), (29, 30, 0), (29, 28, 0), (30, 0, 0)]

def rfc5915 : List (Nat × Nat × Nat) :=
  [(8, 28, 0)]

def rfc5916 : List (Nat × Nat × Nat) :=
  []

def rfc5917 : List (Nat × Nat × Nat) :=
  [(8, 12, 4)]

def rfc5924 : List (Nat × Nat × Nat) :=
  []

def rfc5934 : List (Nat × Nat × Nat) :=
  [(27, 2, 0), (4, 17, 0), (29, 28, 0), (30, 1, 0), (0, 30, 1), (1, 1, 2), (1, 18, 3), (4, 30, 1), (5, 7, 1), (10, 8, 2), (10, 15, 1), (15, 10, 3), (17, 18, 1), (27, 18, 1), (28, 9, 2), (30, 24, 2), (28, 7, 0), (29, 8, 0), (13, 9, 1), (13, 8, 1), (13, 6, 0), (6, 4, 1), (6, 7, 0), (28, 25, 0), (25, 21, 0), (28, 0, 0), (28, 3, 0), (15, 11, 0), (29, 29, 0), (28, 1, 0), (28, 2, 0), (29, 9, 0), (30, 31, 0), (27, 12, 0), (28, 4, 0), (28, 10, 0), (29, 26, 0), (29, 27, 0), (30, 2, 0), (28, 5, 0), (27, 10, 0), (27, 11, 0), (29, 10, 0), (31, 0, 0), (30, 16, 0), (28, 6, 0), (27, 27, 0), (29, 6, 0), (30, 29, 0), (1, 3, 0), (27, 28, 0), (6, 9, 0), (27, 29, 0), (29, 7, 0), (30, 30, 0), (6, 5, 0), (27, 30, 0), (25, 23, 0), (25, 24, 0), (27, 31, 0), (21, 1, 0), (1, 2, 0)]

def rfc5940 : List (Nat × Nat × Nat) :=
  [(17, 30, 0), (6, 22, 1), (24, 6, 0)]

def rfc5958 : List (Nat × Nat × Nat) :=
  [(15, 6, 2), (21, 29, 0), (9, 14, 4), (9, 20, 0), (31, 2, 9), (21, 28, 1), (2, 8, 5), (22, 8, 0), (18, 11, 0), (21, 31, 2), (1, 9, 0)]

def rfc5990 : List (Nat × Nat × Nat) :=
  [(0, 30, 1), (17, 25, 0), (4, 8, 0), (7, 27, 0), (14, 21, 0), (14, 22, 0), (15, 2, 0), (15, 5, 0), (31, 17, 0), (12, 0, 0), (15, 12, 0), (24, 2, 0)]

def rfc6010 : List (Nat × Nat × Nat) :=
  [(2, 0, 3), (2, 4, 3), (1, 14, 0), (1, 15, 0), (6, 27, 0), (6, 26, 0), (3, 25, 0)]

def rfc6019 : List (Nat × Nat × Nat) :=
  [(2, 28, 0), (2, 27, 0)]

def rfc6031 : List (Nat × Nat × Nat) :=
  [(32, 6, 0), (32, 11, 0), (32, 7, 0), (31, 29, 0), (31, 24, 0), (31, 26, 0), (31, 25, 0), (32, 8, 0), (31, 27, 0), (32, 5, 0), (31, 21, 0), (31, 30, 0), (32, 1, 0), (32, 2, 0), (11, 3, 1), (31, 28, 0), (9, 10, 0), (5, 18, 0), (23, 19, 0), (20, 11, 0), (31, 22, 0), (31, 23, 0), (32, 12, 0), (32, 14, 0), (32, 13, 0), (30, 25, 0), (32, 15, 0), (32, 0, 0), (32, 3, 0), (31, 31, 0), (32, 9, 0), (20, 12, 0), (20, 13, 0), (32, 4, 0), (19, 19, 0), (19, 18, 0), (32, 10, 0), (2, 0, 5), (2, 4, 7), (24, 14, 0), (24, 15, 0), (15, 22, 0), (18, 12, 0), (27, 23, 0), (27, 22, 0)]

def rfc6032 : List (Nat × Nat × Nat) :=
  [(6, 18, 0), (9, 17, 0)]

def rfc6120 : List (Nat × Nat × Nat) :=
  [(31, 18, 0)]

def rfc6170 : List (Nat × Nat × Nat) :=
  []

def rfc6187 : List (Nat × Nat × Nat) :=
  []

def rfc6210 : List (Nat × Nat × Nat) :=
  [(16, 23, 0)]

def rfc6211 : List (Nat × Nat × Nat) :=
  [(8, 7, 2), (17, 6, 1), (26, 10, 2), (3, 22, 0)]

def rfc6402 : List (Nat × Nat × Nat) :=
  [(5, 19, 0), (2, 4, 8), (3, 17, 0), (20, 20, 0), (3, 3, 0), (3, 5, 0), (3, 6, 0), (3, 15, 0), (3, 19, 0), (12, 2, 0), (21, 13, 0), (7, 0, 0), (5, 13, 2), (28, 19, 0), (28, 21, 0), (22, 9, 0), (23, 29, 0), (28, 20, 0), (14, 0, 0), (3, 16, 0), (3, 18, 0), (7, 31, 0), (28, 18, 0), (18, 30, 0), (19, 26, 0), (3, 4, 0), (2, 11, 0), (3, 20, 0), (3, 14, 0), (20, 2, 0), (23, 16, 0), (17, 10, 0), (10, 13, 0), (16, 22, 0), (12, 3, 0), (0, 21, 0), (9, 19, 0), (17, 23, 0)]

def rfc6482 : List (Nat × Nat × Nat) :=
  [(0, 8, 0), (13, 26, 1), (22, 18, 0), (22, 19, 0), (24, 1, 0)]

def rfc6486 : List (Nat × Nat × Nat) :=
  [(10, 22, 0), (17, 0, 0)]

def rfc6487 : List (Nat × Nat × Nat) :=
  []

def rfc6664 : List (Nat × Nat × Nat) :=
  [(0, 30, 1), (8, 19, 1), (8, 26, 1), (22, 22, 0), (22, 21, 0), (24, 3, 0), (7, 21, 0), (7, 20, 0), (8, 29, 0)]

def rfc6955 : List (Nat × Nat × Nat) :=
  [(17, 7, 0), (14, 13, 1), (8, 21, 1), (8, 18, 1), (8, 4, 0)]

def rfc6960 : List (Nat × Nat × Nat) :=
  [(0, 30, 1), (2, 19, 2), (4, 30, 1), (5, 7, 1), (4, 5, 3), (10, 15, 1), (11, 28, 3), (17, 18, 1), (0, 18, 0), (1, 5, 0), (4, 28, 0), (15, 9, 0), (17, 30, 0), (17, 31, 0), (23, 17, 0), (23, 31, 0), (30, 12, 0), (31, 2, 5), (4, 13, 1), (27, 5, 1), (23, 15, 1), (23, 18, 1), (2, 26, 1), (23, 13, 1), (26, 9, 5), (28, 12, 1), (17, 29, 1), (25, 26, 0), (7, 8, 0), (21, 23, 0), (21, 24, 0)]

def rfc7030 : List (Nat × Nat × Nat) :=
  [(1, 18, 6), (1, 8, 0), (1, 16, 0), (7, 12, 0)]

def rfc7191 : List (Nat × Nat × Nat) :=
  [(8, 14, 1), (2, 4, 9), (2, 7, 1), (27, 2, 1), (24, 9, 0), (24, 10, 0), (24, 8, 0), (24, 11, 0), (32, 16, 0), (9, 24, 0), (9, 28, 0), (15, 15, 0), (15, 16, 0), (15, 22, 1), (15, 13, 0), (15, 14, 0), (15, 18, 0), (15, 17, 0)]

def rfc7229 : List (Nat × Nat × Nat) :=
  []

def rfc7292 : List (Nat × Nat × Nat) :=
  [(8, 10, 0), (6, 22, 1), (19, 20, 0), (9, 20, 0), (21, 31, 2), (2, 0, 6), (2, 4, 10), (2, 7, 2), (3, 27, 1), (20, 30, 0), (2, 21, 0), (15, 0, 0), (19, 21, 0), (4, 11, 0), (3, 31, 0), (25, 5, 0), (24, 27, 0), (24, 28, 0), (2, 13, 0), (16, 30, 0), (19, 17, 0), (11, 3, 2)]

def rfc7296 : List (Nat × Nat × Nat) :=
  [(5, 3, 0), (4, 31, 0)]

def rfc7508 : List (Nat × Nat × Nat) :=
  [(0, 26, 0), (13, 18, 0), (13, 17, 0), (13, 19, 0), (13, 16, 0), (13, 20, 0), (25, 6, 0)]

def rfc7585 : List (Nat × Nat × Nat) :=
  [(17, 17, 0)]

def rfc7633 : List (Nat × Nat × Nat) :=
  [(10, 18, 0)]

def rfc7773 : List (Nat × Nat × Nat) :=
  [(2, 15, 0), (2, 16, 0)]

def rfc7894 : List (Nat × Nat × Nat) :=
  [(1, 18, 7), (8, 12, 5)]

def rfc7906 : List (Nat × Nat × Nat) :=
  [(6, 20, 0), (25, 12, 0), (25, 11, 0), (9, 2, 0), (25, 8, 0), (9, 3, 0), (6, 6, 0), (6, 8, 0), (0, 30, 1), (17, 18, 1), (4, 30, 1), (11, 29, 1), (11, 28, 3), (27, 16, 1), (3, 25, 0), (2, 28, 0), (2, 27, 0), (1, 18, 6), (5, 8, 1), (5, 0, 1), (6, 25, 1), (17, 7, 0), (24, 8, 0), (15, 17, 0), (15, 23, 0), (25, 30, 0), (17, 0, 1), (14, 31, 0), (15, 19, 0), (15, 20, 0), (5, 20, 0), (5, 21, 0), (17, 26, 0), (17, 27, 0), (9, 6, 0), (23, 7, 0), (23, 9, 0), (23, 8, 0), (25, 17, 0), (25, 18, 0), (25, 16, 0), (28, 16, 0), (15, 24, 0), (16, 0, 0), (29, 23, 0), (15, 3, 0), (16, 1, 0), (15, 4, 0), (25, 7, 0), (9, 25, 0), (11, 1, 0), (14, 6, 0), (5, 25, 0), (27, 9, 0), (15, 21, 0), (26, 15, 0), (20, 31, 0), (6, 18, 1)]

def rfc7914 : List (Nat × Nat × Nat) :=
  [(25, 0, 0)]

def rfc8017 : List (Nat × Nat × Nat) :=
  [(0, 30, 1), (8, 6, 0), (13, 12, 0), (17, 1, 0), (20, 14, 0), (9, 11, 0), (31, 2, 10), (29, 22, 0), (22, 24, 0), (18, 31, 0), (19, 0, 0), (22, 23, 1), (22, 20, 1), (22, 25, 0), (8, 10, 1)]

def rfc8018 : List (Nat × Nat × Nat) :=
  [(0, 7, 1), (0, 30, 1), (19, 8, 0), (19, 9, 0), (19, 11, 0), (19, 10, 0), (22, 14, 0), (22, 16, 0), (7, 16, 0)]

def rfc8103 : List (Nat × Nat × Nat) :=
  [(0, 4, 0)]

def rfc8209 : List (Nat × Nat × Nat) :=
  []

def rfc8226 : List (Nat × Nat × Nat) :=
  [(14, 17, 0), (14, 18, 0), (14, 19, 0), (14, 20, 0), (14, 16, 0), (25, 27, 0), (28, 27, 0), (28, 28, 0), (28, 14, 0), (28, 13, 0)]

def rfc8358 : List (Nat × Nat × Nat) :=
  []

def rfc8360 : List (Nat × Nat × Nat) :=
  [(13, 25, 0), (0, 12, 0)]

def rfc8398 : List (Nat × Nat × Nat) :=
  [(27, 8, 0)]

def rfc8410 : List (Nat × Nat × Nat) :=
  [(26, 10, 2), (15, 6, 2), (7, 15, 0)]

def rfc8418 : List (Nat × Nat × Nat) :=
  [(15, 6, 2), (16, 3, 0)]

def rfc8419 : List (Nat × Nat × Nat) :=
  [(25, 29, 0)]

def rfc8479 : List (Nat × Nat × Nat) :=
  [(30, 22, 0)]

def rfc8494 : List (Nat × Nat × Nat) :=
  [(0, 29, 0), (6, 28, 0), (6, 14, 0), (6, 16, 1), (6, 15, 1)]

def rfc8520 : List (Nat × Nat × Nat) :=
  [(16, 28, 0), (16, 29, 0)]

def rfc8619 : List (Nat × Nat × Nat) :=
  []

def rfc8649 : List (Nat × Nat × Nat) :=
  [(13, 14, 0)]

def rfc8692 : List (Nat × Nat × Nat) :=
  []

def rfc8696 : List (Nat × Nat × Nat) :=
  [(21, 18, 0), (15, 30, 0), (15, 28, 0), (14, 28, 0), (3, 26, 0)]

def rfc8702 : List (Nat × Nat × Nat) :=
  [(0, 30, 1), (14, 26, 0), (14, 27, 0)]

def rfc8708 : List (Nat × Nat × Nat) :=
  [(13, 5, 0)]

def rfc8769 : List (Nat × Nat × Nat) :=
  []

/-- For every module its name, and for each of its classes where the name is and which definition it is. -/
def table : List (List Char × List (Nat × Nat × Nat)) :=
  [(['r', 'f', 'c', '1', '1', '5', '5'], rfc1155),
   (['r', 'f', 'c', '1', '1', '5', '7'], rfc1157),
   (['r', 'f', 'c', '1', '9', '0', '1'], rfc1901),
   (['r', 'f', 'c', '1', '9', '0', '2'], rfc1902),
   (['r', 'f', 'c', '1', '9', '0', '5'], rfc1905),
   (['r', 'f', 'c', '2', '2', '5', '1'], rfc2251),
   (['r', 'f', 'c', '2', '3', '1', '4'], rfc2314),
   (['r', 'f', 'c', '2', '3', '1', '5'], rfc2315),
   (['r', 'f', 'c', '2', '4', '3', '7'], rfc2437),
   (['r', 'f', 'c', '2', '4', '5', '9'], rfc2459),
   (['r', 'f', 'c', '2', '5', '1', '1'], rfc2511),
   (['r', 'f', 'c', '2', '5', '6', '0'], rfc2560),
   (['r', 'f', 'c', '2', '6', '3', '1'], rfc2631),
   (['r', 'f', 'c', '2', '6', '3', '4'], rfc2634),
   (['r', 'f', 'c', '2', '8', '7', '6'], rfc2876),
   (['r', 'f', 'c', '2', '9', '8', '5'], rfc2985),
   (['r', 'f', 'c', '2', '9', '8', '6'], rfc2986),
   (['r', 'f', 'c', '3', '0', '5', '8'], rfc3058),
   (['r', 'f', 'c', '3', '1', '1', '4'], rfc3114),
   (['r', 'f', 'c', '3', '1', '2', '5'], rfc3125),
   (['r', 'f', 'c', '3', '1', '6', '1'], rfc3161),
   (['r', 'f', 'c', '3', '2', '7', '4'], rfc3274),
   (['r', 'f', 'c', '3', '2', '7', '9'], rfc3279),
   (['r', 'f', 'c', '3', '2', '8', '0'], rfc3280),
   (['r', 'f', 'c', '3', '2', '8', '1'], rfc3281),
   (['r', 'f', 'c', '3', '3', '7', '0'], rfc3370),
   (['r', 'f', 'c', '3', '4', '1', '2'], rfc3412),
   (['r', 'f', 'c', '3', '4', '1', '4'], rfc3414),
   (['r', 'f', 'c', '3', '4', '4', '7'], rfc3447),
   (['r', 'f', 'c', '3', '5', '3', '7'], rfc3537),
   (['r', 'f', 'c', '3', '5', '6', '0'], rfc3560),
   (['r', 'f', 'c', '3', '5', '6', '5'], rfc3565),
   (['r', 'f', 'c', '3', '6', '5', '7'], rfc3657),
   (['r', 'f', 'c', '3', '7', '0', '9'], rfc3709),
   (['r', 'f', 'c', '3', '7', '3', '9'], rfc3739),
   (['r', 'f', 'c', '3', '7', '7', '0'], rfc3770),
   (['r', 'f', 'c', '3', '7', '7', '9'], rfc3779),
   (['r', 'f', 'c', '3', '8', '2', '0'], rfc3820),
   (['r', 'f', 'c', '3', '8', '5', '2'], rfc3852),
   (['r', 'f', 'c', '4', '0', '1', '0'], rfc4010),
   (['r', 'f', 'c', '4', '0', '4', '3'], rfc4043),
   (['r', 'f', 'c', '4', '0', '5', '5'], rfc4055),
   (['r', 'f', 'c', '4', '0', '7', '3'], rfc4073),
   (['r', 'f', 'c', '4', '1', '0', '8'], rfc4108),
   (['r', 'f', 'c', '4', '2', '1', '0'], rfc4210),
   (['r', 'f', 'c', '4', '2', '1', '1'], rfc4211),
   (['r', 'f', 'c', '4', '3', '3', '4'], rfc4334),
   (['r', 'f', 'c', '4', '3', '5', '7'], rfc4357),
   (['r', 'f', 'c', '4', '3', '8', '7'], rfc4387),
   (['r', 'f', 'c', '4', '4', '7', '6'], rfc4476),
   (['r', 'f', 'c', '4', '4', '9', '0'], rfc4490),
   (['r', 'f', 'c', '4', '4', '9', '1'], rfc4491),
   (['r', 'f', 'c', '4', '6', '8', '3'], rfc4683),
   (['r', 'f', 'c', '4', '9', '8', '5'], rfc4985),
   (['r', 'f', 'c', '5', '0', '3', '5'], rfc5035),
   (['r', 'f', 'c', '5', '0', '8', '3'], rfc5083),
   (['r', 'f', 'c', '5', '0', '8', '4'], rfc5084),
   (['r', 'f', 'c', '5', '1', '2', '6'], rfc5126),
   (['r', 'f', 'c', '5', '2', '0', '8'], rfc5208),
   (['r', 'f', 'c', '5', '2', '7', '5'], rfc5275),
   (['r', 'f', 'c', '5', '2', '8', '0'], rfc5280),
   (['r', 'f', 'c', '5', '4', '8', '0'], rfc5480),
   (['r', 'f', 'c', '5', '6', '3', '6'], rfc5636),
   (['r', 'f', 'c', '5', '6', '3', '9'], rfc5639),
   (['r', 'f', 'c', '5', '6', '4', '9'], rfc5649),
   (['r', 'f', 'c', '5', '6', '5', '2'], rfc5652),
   (['r', 'f', 'c', '5', '6', '9', '7'], rfc5697),
   (['r', 'f', 'c', '5', '7', '5', '1'], rfc5751),
   (['r', 'f', 'c', '5', '7', '5', '2'], rfc5752),
   (['r', 'f', 'c', '5', '7', '5', '3'], rfc5753),
   (['r', 'f', 'c', '5', '7', '5', '5'], rfc5755),
   (['r', 'f', 'c', '5', '9', '1', '3'], rfc5913),
   (['r', 'f', 'c', '5', '9', '1', '4'], rfc5914),
   (['r', 'f', 'c', '5', '9', '1', '5'], rfc5915),
   (['r', 'f', 'c', '5', '9', '1', '6'], rfc5916),
   (['r', 'f', 'c', '5', '9', '1', '7'], rfc5917),
   (['r', 'f', 'c', '5', '9', '2', '4'], rfc5924),
   (['r', 'f', 'c', '5', '9', '3', '4'], rfc5934),
   (['r', 'f', 'c', '5', '9', '4', '0'], rfc5940),
   (['r', 'f', 'c', '5', '9', '5', '8'], rfc5958),
   (['r', 'f', 'c', '5', '9', '9', '0'], rfc5990),
   (['r', 'f', 'c', '6', '0', '1', '0'], rfc6010),
   (['r', 'f', 'c', '6', '0', '1', '9'], rfc6019),
   (['r', 'f', 'c', '6', '0', '3', '1'], rfc6031),
   (['r', 'f', 'c', '6', '0', '3', '2'], rfc6032),
   (['r', 'f', 'c', '6', '1', '2', '0'], rfc6120),
   (['r', 'f', 'c', '6', '1', '7', '0'], rfc6170),
   (['r', 'f', 'c', '6', '1', '8', '7'], rfc6187),
   (['r', 'f', 'c', '6', '2', '1', '0'], rfc6210),
   (['r', 'f', 'c', '6', '2', '1', '1'], rfc6211),
   (['r', 'f', 'c', '6', '4', '0', '2'], rfc6402),
   (['r', 'f', 'c', '6', '4', '8', '2'], rfc6482),
   (['r', 'f', 'c', '6', '4', '8', '6'], rfc6486),
   (['r', 'f', 'c', '6', '4', '8', '7'], rfc6487),
   (['r', 'f', 'c', '6', '6', '6', '4'], rfc6664),
   (['r', 'f', 'c', '6', '9', '5', '5'], rfc6955),
   (['r', 'f', 'c', '6', '9', '6', '0'], rfc6960),
   (['r', 'f', 'c', '7', '0', '3', '0'], rfc7030),
   (['r', 'f', 'c', '7', '1', '9', '1'], rfc7191),
   (['r', 'f', 'c', '7', '2', '2', '9'], rfc7229),
   (['r', 'f', 'c', '7', '2', '9', '2'], rfc7292),
   (['r', 'f', 'c', '7', '2', '9', '6'], rfc7296),
   (['r', 'f', 'c', '7', '5', '0', '8'], rfc7508),
   (['r', 'f', 'c', '7', '5', '8', '5'], rfc7585),
   (['r', 'f', 'c', '7', '6', '3', '3'], rfc7633),
   (['r', 'f', 'c', '7', '7', '7', '3'], rfc7773),
   (['r', 'f', 'c', '7', '8', '9', '4'], rfc7894),
   (['r', 'f', 'c', '7', '9', '0', '6'], rfc7906),
   (['r', 'f', 'c', '7', '9', '1', '4'], rfc7914),
   (['r', 'f', 'c', '8', '0', '1', '7'], rfc8017),
   (['r', 'f', 'c', '8', '0', '1', '8'], rfc8018),
   (['r', 'f', 'c', '8', '1', '0', '3'], rfc8103),
   (['r', 'f', 'c', '8', '2', '0', '9'], rfc8209),
   (['r', 'f', 'c', '8', '2', '2', '6'], rfc8226),
   (['r', 'f', 'c', '8', '3', '5', '8'], rfc8358),
   (['r', 'f', 'c', '8', '3', '6', '0'], rfc8360),
   (['r', 'f', 'c', '8', '3', '9', '8'], rfc8398),
   (['r', 'f', 'c', '8', '4', '1', '0'], rfc8410),
   (['r', 'f', 'c', '8', '4', '1', '8'], rfc8418),
   (['r', 'f', 'c', '8', '4', '1', '9'], rfc8419),
   (['r', 'f', 'c', '8', '4', '7', '9'], rfc8479),
   (['r', 'f', 'c', '8', '4', '9', '4'], rfc8494),
   (['r', 'f', 'c', '8', '5', '2', '0'], rfc8520),
   (['r', 'f', 'c', '8', '6', '1', '9'], rfc8619),
   (['r', 'f', 'c', '8', '6', '4', '9'], rfc8649),
   (['r', 'f', 'c', '8', '6', '9', '2'], rfc8692),
   (['r', 'f', 'c', '8', '6', '9', '6'], rfc8696),
   (['r', 'f', 'c', '8', '7', '0', '2'], rfc8702),
   (['r', 'f', 'c', '8', '7', '0', '8'], rfc8708),
   (['r', 'f', 'c', '8', '7', '6', '9'], rfc8769)]

end Names
end Verif
