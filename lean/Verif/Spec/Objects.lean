import Verif.Spec.Grade
import Verif.Spec.Compat
import Verif.Py.Import

/-!
# Information objects: identifiers and the types that go with them

The dictionaries of the package stand for the object classes of the standards: an entry `id: Type()` says what
`{ Type IDENTIFIED BY id }` does.
-/

namespace Verif
namespace Std

open Asn1

/-- The object classes, named as in the standards (X.501, X.509, RFC 5280, 5652, 7292 and others). -/
inductive ObjClass where
  | ALGORITHM | ATTRIBUTE | EXTENSION | EXTENSION_ATTRIBUTE | OTHER_NAME | CERT_POLICY_QUALIFIER
  | CONTENT_TYPE | CMS_ATTRIBUTE | OTHER_REVOK_INFO | OTHER_RECIPIENT | SMIME_CAPS | SECURITY_CATEGORY
  | QC_STATEMENT | SIG_POLICY_QUALIFIER | GLA_QUERY | SKEY_ATTRIBUTE | SKEY_PKG_ATTRIBUTE | RESPONSE
  | BAG_TYPE | CERT_BAG | CRL_BAG | PKCS7_CONTENT | ATTRIBUTE_2459 | EXTENSION_2459
  deriving DecidableEq, Repr

/-- Where the package keeps the objects of a class. -/
def ObjClass.map : ObjClass → Ident
  | ALGORITHM => Py.map 3 "rfc5280.algorithmIdentifierMap"
  | ATTRIBUTE => Py.map 4 "rfc5280.certificateAttributesMap"
  | EXTENSION => Py.map 48 "rfc5280.certificateExtensionsMap"
  | EXTENSION_ATTRIBUTE => Py.map 5 "rfc5280.oraddressExtensionAttributeMap"
  | OTHER_NAME => Py.map 6 "rfc5280.anotherNameMap"
  | CERT_POLICY_QUALIFIER => Py.map 7 "rfc5280.policyQualifierInfoMap"
  | CONTENT_TYPE => Py.map 13 "rfc5652.cmsContentTypesMap"
  | CMS_ATTRIBUTE => Py.map 8 "rfc5652.cmsAttributesMap"
  | OTHER_REVOK_INFO => Py.map 11 "rfc5652.otherRevInfoFormatMap"
  | OTHER_RECIPIENT => Py.map 12 "rfc5652.otherRecipientInfoMap"
  | SMIME_CAPS => Py.map 14 "rfc5751.smimeCapabilityMap"
  | SECURITY_CATEGORY => Py.map 19 "rfc5755.securityCategoryMap"
  | QC_STATEMENT => Py.map 20 "rfc3739.qcStatementMap"
  | SIG_POLICY_QUALIFIER => Py.map 21 "rfc5126.sigQualifiersMap"
  | GLA_QUERY => Py.map 25 "rfc5275.glaQueryRRMap"
  | SKEY_ATTRIBUTE => Py.map 26 "rfc6031.sKeyAttributesMap"
  | SKEY_PKG_ATTRIBUTE => Py.map 27 "rfc6031.sKeyPkgAttributesMap"
  | RESPONSE => Py.map 117 "rfc6960.ocspResponseMap"
  | BAG_TYPE => Py.map 15 "rfc7292.pkcs12BagTypeMap"
  | CERT_BAG => Py.map 16 "rfc7292.pkcs12CertBagMap"
  | CRL_BAG => Py.map 17 "rfc7292.pkcs12CRLBagMap"
  | PKCS7_CONTENT => Py.map 2 "rfc2315.contentTypeMap"
  | ATTRIBUTE_2459 => Py.map 0 "rfc2459.certificateAttributesMap"
  | EXTENSION_2459 => Py.map 1 "rfc2459.certificateExtensionsMap"

def ObjClass.all : List ObjClass :=
  [ALGORITHM, ATTRIBUTE, EXTENSION, EXTENSION_ATTRIBUTE, OTHER_NAME, CERT_POLICY_QUALIFIER, CONTENT_TYPE, CMS_ATTRIBUTE,
   OTHER_REVOK_INFO, OTHER_RECIPIENT, SMIME_CAPS, SECURITY_CATEGORY, QC_STATEMENT, SIG_POLICY_QUALIFIER, GLA_QUERY, SKEY_ATTRIBUTE,
   SKEY_PKG_ATTRIBUTE, RESPONSE, BAG_TYPE, CERT_BAG, CRL_BAG, PKCS7_CONTENT, ATTRIBUTE_2459, EXTENSION_2459]

/-- `{ Type IDENTIFIED BY identifier }`, and how what the package has for the identifier relates to the type. -/
structure Object where
  cls : ObjClass
  key : Val
  std : Ty
  /-- `none`: the module of this standard has no entry for the identifier. -/
  grade : Option Grade

/-- A module of the package beside the objects of its standard. -/
structure Objects where
  module : Py.Module
  objects : List Object
  /-- Entries the transcription of the standard does not have. -/
  unlisted : List (ObjClass × Val)

/-- What a grade says of a type of the package and a type of a standard. -/
def Relates (t std : Ty) : Grade → Prop
  | .same => (∀ v, t.valid v = std.valid v) ∧ (∀ v, encode t v = encode std v) ∧ ∀ b, decode t b = decode std b
  | .relaxed => (∀ v, std.valid v = true → t.valid v = true) ∧ (∀ v b, encode std v = some b → encode t v = some b) ∧
      ∀ b r, decode std b = some r → decode t b = some r
  | .widened => ∀ b r v, decode std b = some (v, r) → ∃ w, decode t b = some (w, r) ∧ t.rel std v w
  | .rewritten v => (∀ b r u, decode std b = some (u, r) → ∃ w, decode t b = some (w, r) ∧ t.rel std u w) ∧
      std.valid v = true ∧ ∃ b, encode std v = some b ∧ encode t v ≠ some b
  | .refused b => (∃ v, decode std b = some (v, [])) ∧ decode t b = none
  | .changed b => ∃ v w, decode std b = some (v, []) ∧ decode t b = some (w, []) ∧ v ≠ w

end Std
end Verif
