-- RFC 2631, section 2.1.2 ("these ASN.1 definitions use EXPLICIT tagging").
DiffieHellman DEFINITIONS EXPLICIT TAGS ::= BEGIN
OtherInfo ::= SEQUENCE {
  keyInfo KeySpecificInfo,
  partyAInfo [0] OCTET STRING OPTIONAL,
  suppPubInfo [2] OCTET STRING }
KeySpecificInfo ::= SEQUENCE {
  algorithm OBJECT IDENTIFIER,
  counter OCTET STRING (SIZE (4..4)) }
END
