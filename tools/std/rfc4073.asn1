-- RFC 4073.
ContentCollectionModule DEFINITIONS IMPLICIT TAGS ::= BEGIN
IMPORTS Attribute, ContentInfo FROM rfc5652;
id-ct OBJECT IDENTIFIER ::= { iso(1) member-body(2) us(840) rsadsi(113549) pkcs(1) pkcs9(9) smime(16) ct(1) }
id-ct-contentCollection OBJECT IDENTIFIER ::= { id-ct 19 }
ContentCollection ::= SEQUENCE SIZE (1..MAX) OF ContentInfo
id-ct-contentWithAttrs OBJECT IDENTIFIER ::= { id-ct 20 }
ContentWithAttributes ::= SEQUENCE {
  content ContentInfo,
  attrs SEQUENCE SIZE (1..MAX) OF Attribute }
END
