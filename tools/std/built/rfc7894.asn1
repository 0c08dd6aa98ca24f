EST-Alternative-Challenge-Password DEFINITIONS EXPLICIT TAGS ::= BEGIN
Attribute ::= rfc7191.SingleAttribute
DirectoryString ::= CHOICE {
  teletexString TeletexString (SIZE (1..255)),
  printableString PrintableString (SIZE (1..255)),
  universalString UniversalString (SIZE (1..255)),
  utf8String UTF8String (SIZE (1..255)),
  bmpString BMPString (SIZE (1..255)) }
END
