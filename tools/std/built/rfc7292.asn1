-- Built on RFC 5652.
PKCS-12 DEFINITIONS IMPLICIT TAGS ::= BEGIN
ContentInfo ::= rfc5652.ContentInfo
AttributeType ::= OBJECT IDENTIFIER
AttributeValue ::= ANY
AttributeValues ::= SET OF AttributeValue
CMSSingleAttribute ::= SEQUENCE {
  attrType AttributeType,
  attrValues SET SIZE (1) OF AttributeValue }
BAG-TYPE ::= SEQUENCE {
  id OBJECT IDENTIFIER,
  unnamed1 ANY }
FriendlyName ::= BMPString (SIZE (1..255))
PKCS12Attribute ::= rfc5652.Attribute
END
