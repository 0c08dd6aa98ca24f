-- RFC 8419.
CMS-EdDSA DEFINITIONS EXPLICIT TAGS ::= BEGIN
id-Ed25519 OBJECT IDENTIFIER ::= { 1 3 101 112 }
id-Ed448 OBJECT IDENTIFIER ::= { 1 3 101 113 }
hashAlgs OBJECT IDENTIFIER ::= { joint-iso-itu-t(2) country(16) us(840) organization(1) gov(101) csor(3) nistAlgorithm(4) 2 }
id-sha512 OBJECT IDENTIFIER ::= { hashAlgs 3 }
id-shake256 OBJECT IDENTIFIER ::= { hashAlgs 12 }
id-shake256-len OBJECT IDENTIFIER ::= { hashAlgs 18 }
ShakeOutputLen ::= INTEGER
END
