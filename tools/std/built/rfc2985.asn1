-- Attributes with one value; strings of at most 255 characters.
PKCS-9 DEFINITIONS EXPLICIT TAGS ::= BEGIN

CMSAttribute ::= rfc5652.Attribute
AttributeValues ::= SET OF AttributeValue
SingleAttributeValues ::= SET OF AttributeValue
SingleAttribute ::= SEQUENCE {
  type AttributeType,
  values SET SIZE (1) OF AttributeValue }
CMSSingleAttribute ::= SEQUENCE {
  attrType AttributeType,
  attrValues SET SIZE (1) OF AttributeValue }
DirectoryString ::= CHOICE {
  teletexString TeletexString (SIZE (1..255)),
  printableString PrintableString (SIZE (1..255)),
  universalString UniversalString (SIZE (1..255)),
  utf8String UTF8String (SIZE (1..255)),
  bmpString BMPString (SIZE (1..255)) }
PKCS9String ::= CHOICE {
  ia5String IA5String (SIZE (1..255)),
  directoryString DirectoryString }
GenderString ::= PrintableString ("M" | "F" | "m" | "f")
AttributeSet ::= SET OF Attribute
FriendlyName ::= BMPString (SIZE (1..255))
SMIMECapability ::= AlgorithmIdentifier
SMIMECapabilities ::= SEQUENCE OF SMIMECapability
END
