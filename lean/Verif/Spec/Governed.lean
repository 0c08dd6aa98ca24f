import Verif.Spec.Objects
import Verif.Spec.Open

/-!
# Open type fields of the standards

In the ASN.1 of the standards the type of some components depends on the value of another component of the same
SEQUENCE: `ANY DEFINED BY governor`, or `CLASS.&Type ({Objects}{@governor})`.
-/

namespace Verif
namespace Std

open Asn1

/-- Where the types are looked up. -/
inductive Dict where
  /-- the objects of a class -/
  | objects (c : ObjClass)
  /-- a dictionary of the package, for which the standards list no objects -/
  | other (name : String)
  deriving DecidableEq, Repr

/-- The dictionary an `OpenType` refers to is this one. -/
def Dict.is (m : Ident) : Dict → Bool
  | .objects c => decide (m = c.map)
  | .other n => decide (m.name = n)

/-- Class, open type field, governor and dictionary. -/
abbrev OpenField := String × String × String × Dict

/-- The components whose type depends on another one, in the types that the package declares as such, by the
package's names for them (`algorithm`/`parameters` of every AlgorithmIdentifier, and so on). -/
def openFields : List OpenField :=
  [("rfc2315.ContentInfo", "content", "contentType", .objects .PKCS7_CONTENT),
   ("rfc2459.AttributeTypeAndValue", "value", "type", .objects .ATTRIBUTE_2459),
   ("rfc2459.Extension", "extnValue", "extnID", .objects .EXTENSION_2459),
   ("rfc2985.AlgorithmIdentifier", "parameters", "algorithm", .objects .ALGORITHM),
   ("rfc2985.Attribute", "values", "type", .objects .ATTRIBUTE),
   ("rfc2985.ContentInfo", "content", "contentType", .objects .CONTENT_TYPE),
   ("rfc2985.SingleAttribute", "values", "type", .objects .ATTRIBUTE),
   ("rfc2985.CMSAttribute", "attrValues", "attrType", .objects .CMS_ATTRIBUTE),
   ("rfc2985.CMSSingleAttribute", "attrValues", "attrType", .objects .CMS_ATTRIBUTE),
   ("rfc2986.AttributeTypeAndValue", "value", "type", .objects .ATTRIBUTE),
   ("rfc2986.Attribute", "values", "type", .objects .ATTRIBUTE),
   ("rfc2986.AlgorithmIdentifier", "parameters", "algorithm", .objects .ALGORITHM),
   ("rfc3125.AlgorithmIdentifier", "parameters", "algorithm", .objects .ALGORITHM),
   ("rfc3125.Attribute", "values", "type", .objects .ATTRIBUTE),
   ("rfc3125.AttributeTypeAndValue", "value", "type", .objects .ATTRIBUTE),
   ("rfc3161.AlgorithmIdentifier", "parameters", "algorithm", .objects .ALGORITHM),
   ("rfc3161.ContentInfo", "content", "contentType", .objects .CONTENT_TYPE),
   ("rfc3161.TimeStampToken", "content", "contentType", .objects .CONTENT_TYPE),
   ("rfc3274.CompressionAlgorithmIdentifier", "parameters", "algorithm", .objects .ALGORITHM),
   ("rfc3370.AlgorithmIdentifier", "parameters", "algorithm", .objects .ALGORITHM),
   ("rfc3370.KeyWrapAlgorithm", "parameters", "algorithm", .objects .ALGORITHM),
   ("rfc3565.AlgorithmIdentifier", "parameters", "algorithm", .objects .ALGORITHM),
   ("rfc3739.AlgorithmIdentifier", "parameters", "algorithm", .objects .ALGORITHM),
   ("rfc3739.QCStatement", "statementInfo", "statementId", .objects .QC_STATEMENT),
   ("rfc4055.HashAlgorithm", "parameters", "algorithm", .objects .ALGORITHM),
   ("rfc4055.MaskGenAlgorithm", "parameters", "algorithm", .objects .ALGORITHM),
   ("rfc4357.AlgorithmIdentifier", "parameters", "algorithm", .objects .ALGORITHM),
   ("rfc4476.PolicyQualifierInfo", "qualifier", "policyQualifierId", .objects .CERT_POLICY_QUALIFIER),
   ("rfc5035.AlgorithmIdentifier", "parameters", "algorithm", .objects .ALGORITHM),
   ("rfc5126.ContentInfo", "content", "contentType", .objects .CONTENT_TYPE),
   ("rfc5126.AlgorithmIdentifier", "parameters", "algorithm", .objects .ALGORITHM),
   ("rfc5126.Attribute", "values", "type", .objects .ATTRIBUTE),
   ("rfc5126.TimeStampToken", "content", "contentType", .objects .CONTENT_TYPE),
   ("rfc5126.SigPolicyQualifierInfo", "sigQualifier", "sigPolicyQualifierId", .objects .SIG_POLICY_QUALIFIER),
   ("rfc5126.CommitmentTypeQualifier", "qualifier", "commitmentTypeIdentifier", .other "rfc5126.commitmentQualifierMap"),
   ("rfc5126.SignatureTimeStampToken", "content", "contentType", .objects .CONTENT_TYPE),
   ("rfc5126.ContentTimestamp", "content", "contentType", .objects .CONTENT_TYPE),
   ("rfc5126.OtherRevRefs", "otherRevRefs", "otherRevRefType", .other "rfc5126.otherRevRefMap"),
   ("rfc5126.OtherRevVals", "otherRevVals", "otherRevValType", .other "rfc5126.otherRevValMap"),
   ("rfc5126.ESCTimeStampToken", "content", "contentType", .objects .CONTENT_TYPE),
   ("rfc5126.TimestampedCertsCRLs", "content", "contentType", .objects .CONTENT_TYPE),
   ("rfc5126.ArchiveTimeStampToken", "content", "contentType", .objects .CONTENT_TYPE),
   ("rfc5275.AlgorithmIdentifier", "parameters", "algorithm", .objects .ALGORITHM),
   ("rfc5275.SMIMECapability", "parameters", "capabilityID", .objects .SMIME_CAPS),
   ("rfc5275.GLAQueryRequest", "glaRequestValue", "glaRequestType", .objects .GLA_QUERY),
   ("rfc5275.GLAQueryResponse", "glaResponseValue", "glaResponseType", .objects .GLA_QUERY),
   ("rfc5280.AlgorithmIdentifier", "parameters", "algorithm", .objects .ALGORITHM),
   ("rfc5280.AttributeTypeAndValue", "value", "type", .objects .ATTRIBUTE),
   ("rfc5280.ExtensionAttribute", "extension-attribute-value", "extension-attribute-type", .objects .EXTENSION_ATTRIBUTE),
   ("rfc5280.Attribute", "values", "type", .objects .ATTRIBUTE),
   ("rfc5280.AnotherName", "value", "type-id", .objects .OTHER_NAME),
   ("rfc5280.PolicyQualifierInfo", "qualifier", "policyQualifierId", .objects .CERT_POLICY_QUALIFIER),
   ("rfc5636.ContentInfo", "content", "contentType", .objects .CONTENT_TYPE),
   ("rfc5636.Token", "content", "contentType", .objects .CONTENT_TYPE),
   ("rfc5636.TokenandBlindHash", "content", "contentType", .objects .CONTENT_TYPE),
   ("rfc5636.TokenandPartiallySignedCertificateHash", "content", "contentType", .objects .CONTENT_TYPE),
   ("rfc5649.AlgorithmIdentifier", "parameters", "algorithm", .objects .ALGORITHM),
   ("rfc5652.Attribute", "attrValues", "attrType", .objects .CMS_ATTRIBUTE),
   ("rfc5652.OtherKeyAttribute", "keyAttr", "keyAttrId", .other "rfc5652.otherKeyAttributesMap"),
   ("rfc5652.OtherCertificateFormat", "otherCert", "otherCertFormat", .other "rfc5652.otherCertFormatMap"),
   ("rfc5652.SignatureAlgorithmIdentifier", "parameters", "algorithm", .objects .ALGORITHM),
   ("rfc5652.OtherRevocationInfoFormat", "otherRevInfo", "otherRevInfoFormat", .objects .OTHER_REVOK_INFO),
   ("rfc5652.ContentEncryptionAlgorithmIdentifier", "parameters", "algorithm", .objects .ALGORITHM),
   ("rfc5652.KeyEncryptionAlgorithmIdentifier", "parameters", "algorithm", .objects .ALGORITHM),
   ("rfc5652.KeyDerivationAlgorithmIdentifier", "parameters", "algorithm", .objects .ALGORITHM),
   ("rfc5652.OtherRecipientInfo", "oriValue", "oriType", .objects .OTHER_RECIPIENT),
   ("rfc5652.DigestAlgorithmIdentifier", "parameters", "algorithm", .objects .ALGORITHM),
   ("rfc5652.MessageAuthenticationCodeAlgorithm", "parameters", "algorithm", .objects .ALGORITHM),
   ("rfc5652.ContentInfo", "content", "contentType", .objects .CONTENT_TYPE),
   ("rfc5697.AlgorithmIdentifier", "parameters", "algorithm", .objects .ALGORITHM),
   ("rfc5751.SMIMECapability", "parameters", "capabilityID", .objects .SMIME_CAPS),
   ("rfc5753.AlgorithmIdentifier", "parameters", "algorithm", .objects .ALGORITHM),
   ("rfc5753.KeyWrapAlgorithm", "parameters", "algorithm", .objects .ALGORITHM),
   ("rfc5755.ContentInfo", "content", "contentType", .objects .CONTENT_TYPE),
   ("rfc5755.AlgorithmIdentifier", "parameters", "algorithm", .objects .ALGORITHM),
   ("rfc5755.Attribute", "values", "type", .objects .ATTRIBUTE),
   ("rfc5755.SecurityCategory", "value", "type", .objects .SECURITY_CATEGORY),
   ("rfc5934.SingleAttribute", "values", "type", .objects .ATTRIBUTE),
   ("rfc5934.AlgorithmIdentifier", "parameters", "algorithm", .objects .ALGORITHM),
   ("rfc5934.AnotherName", "value", "type-id", .objects .OTHER_NAME),
   ("rfc5934.Attribute", "values", "type", .objects .ATTRIBUTE),
   ("rfc5940.ContentInfo", "content", "contentType", .objects .CONTENT_TYPE),
   ("rfc5958.KeyEncryptionAlgorithmIdentifier", "parameters", "algorithm", .objects .ALGORITHM),
   ("rfc5958.PrivateKeyAlgorithmIdentifier", "parameters", "algorithm", .objects .ALGORITHM),
   ("rfc5990.AlgorithmIdentifier", "parameters", "algorithm", .objects .ALGORITHM),
   ("rfc5990.Camellia_KeyWrappingScheme", "parameters", "algorithm", .objects .ALGORITHM),
   ("rfc5990.DataEncapsulationMechanism", "parameters", "algorithm", .objects .ALGORITHM),
   ("rfc5990.KDF2_HashFunction", "parameters", "algorithm", .objects .ALGORITHM),
   ("rfc5990.KDF3_HashFunction", "parameters", "algorithm", .objects .ALGORITHM),
   ("rfc5990.KeyDerivationFunction", "parameters", "algorithm", .objects .ALGORITHM),
   ("rfc5990.KeyEncapsulationMechanism", "parameters", "algorithm", .objects .ALGORITHM),
   ("rfc5990.X9_SymmetricKeyWrappingScheme", "parameters", "algorithm", .objects .ALGORITHM),
   ("rfc6031.SKeyAttribute", "attrValues", "attrType", .objects .SKEY_ATTRIBUTE),
   ("rfc6031.SKeyPkgAttribute", "attrValues", "attrType", .objects .SKEY_PKG_ATTRIBUTE),
   ("rfc6211.DigestAlgorithmIdentifier", "parameters", "algorithm", .objects .ALGORITHM),
   ("rfc6211.MessageAuthenticationCodeAlgorithm", "parameters", "algorithm", .objects .ALGORITHM),
   ("rfc6211.SignatureAlgorithmIdentifier", "parameters", "algorithm", .objects .ALGORITHM),
   ("rfc6664.AlgorithmIdentifier", "parameters", "algorithm", .objects .ALGORITHM),
   ("rfc6960.AlgorithmIdentifier", "parameters", "algorithm", .objects .ALGORITHM),
   ("rfc7030.Attribute", "attrValues", "attrType", .objects .CMS_ATTRIBUTE),
   ("rfc7191.SingleAttribute", "attrValues", "attrType", .objects .CMS_ATTRIBUTE),
   ("rfc7292.ContentInfo", "content", "contentType", .objects .CONTENT_TYPE),
   ("rfc7292.PKCS12Attribute", "attrValues", "attrType", .objects .CMS_ATTRIBUTE),
   ("rfc7292.CMSSingleAttribute", "attrValues", "attrType", .objects .CMS_ATTRIBUTE),
   ("rfc7292.CertBag", "certValue", "certId", .objects .CERT_BAG),
   ("rfc7292.CRLBag", "crlValue", "crlId", .objects .CRL_BAG),
   ("rfc7292.SecretBag", "secretValue", "secretTypeId", .other "rfc7292.pkcs12SecretBagMap"),
   ("rfc7292.SafeBag", "bagValue", "bagId", .objects .BAG_TYPE),
   ("rfc7894.Attribute", "attrValues", "attrType", .objects .CMS_ATTRIBUTE),
   ("rfc7906.AlgorithmIdentifier", "parameters", "algorithm", .objects .ALGORITHM),
   ("rfc7906.Attribute", "attrValues", "attrType", .objects .CMS_ATTRIBUTE),
   ("rfc8017.AlgorithmIdentifier", "parameters", "algorithm", .objects .ALGORITHM),
   ("rfc8017.DigestAlgorithm", "parameters", "algorithm", .objects .ALGORITHM),
   ("rfc8017.HashAlgorithm", "parameters", "algorithm", .objects .ALGORITHM),
   ("rfc8017.MaskGenAlgorithm", "parameters", "algorithm", .objects .ALGORITHM),
   ("rfc8017.PSourceAlgorithm", "parameters", "algorithm", .objects .ALGORITHM),
   ("rfc8018.AlgorithmIdentifier", "parameters", "algorithm", .objects .ALGORITHM),
   ("rfc8410.SignatureAlgorithmIdentifier", "parameters", "algorithm", .objects .ALGORITHM),
   ("rfc8410.KeyEncryptionAlgorithmIdentifier", "parameters", "algorithm", .objects .ALGORITHM),
   ("rfc8418.KeyEncryptionAlgorithmIdentifier", "parameters", "algorithm", .objects .ALGORITHM),
   ("rfc8418.KeyWrapAlgorithmIdentifier", "parameters", "algorithm", .objects .ALGORITHM),
   ("rfc8702.AlgorithmIdentifier", "parameters", "algorithm", .objects .ALGORITHM)]

/-- Declarations that are not as in the standards: the governor of an AttributeValueAssertion is
`attributeType`; what EncryptedContentInfo holds is encrypted, not of the content type; the identifiers of
SMIMECapability are those of capabilities, not of algorithms; controls of CMC are not attributes; BAG-TYPE is not
a type, and its package counterpart has no component `attrType`. -/
def misdeclared : List OpenField :=
  [("rfc2315.AttributeValueAssertion", "attributeValue", "type", .objects .ATTRIBUTE_2459),
   ("rfc2315.EncryptedContentInfo", "encryptedContent", "contentType", .objects .PKCS7_CONTENT),
   ("rfc2985.SMIMECapability", "parameters", "algorithm", .objects .ALGORITHM),
   ("rfc6402.TaggedAttribute", "attrValues", "attrType", .objects .CMS_ATTRIBUTE),
   ("rfc7292.BAG_TYPE", "unnamed1", "attrType", .objects .BAG_TYPE)]

/-- The value of a component after decoding with open types. -/
def openedVal (name : String) : Comps → OVals → Option OVal
  | .cons f _ cs, .cons v vs => if f.name = name then some v else openedVal name cs vs
  | _, _ => none

/-- What stands in place of octets that hold a value of the type `std`: that value, itself with its open type fields
resolved. -/
def Resolved (S : Side) (std : Ty) : Val → OVal → Prop
  | .octets b, .opened u w => ∃ x, decode u b = some x ∧ ∀ v r, decode std b = some (v, r) → ∃ ine, Opens S ine u v w
  | _, _ => False

/-- The same for all elements of a SET OF or SEQUENCE OF. -/
def ResolvedAll (S : Side) (std : Ty) : Vals → OVals → Prop
  | .nil, .nil => True
  | .cons v vs, .cons w ws => Resolved S std v w ∧ ResolvedAll S std vs ws
  | _, _ => False

/-- An open type field whose governor identifies an object with type `std`. -/
def ResolvedField (S : Side) (std : Ty) : Val → OVal → Prop
  | .absent, .leaf .absent => True
  | .list vs, .list ws => ResolvedAll S std vs ws
  | v, w => Resolved S std v w

end Std
end Verif
