-- RFC 8418.
CMSECDHAlgs-2017 DEFINITIONS EXPLICIT TAGS ::= BEGIN
IMPORTS KeyEncryptionAlgorithmIdentifier FROM rfc5652
  AlgorithmIdentifier FROM rfc5280
  dhSinglePass-stdDH-sha256kdf-scheme, dhSinglePass-stdDH-sha384kdf-scheme, dhSinglePass-stdDH-sha512kdf-scheme FROM rfc5753;
dhSinglePass-stdDH-hkdf-sha256-scheme OBJECT IDENTIFIER ::= { iso(1) member-body(2) us(840) rsadsi(113549) pkcs(1) pkcs9(9) smime(16) alg(3) 19 }
dhSinglePass-stdDH-hkdf-sha384-scheme OBJECT IDENTIFIER ::= { iso(1) member-body(2) us(840) rsadsi(113549) pkcs(1) pkcs9(9) smime(16) alg(3) 20 }
dhSinglePass-stdDH-hkdf-sha512-scheme OBJECT IDENTIFIER ::= { iso(1) member-body(2) us(840) rsadsi(113549) pkcs(1) pkcs9(9) smime(16) alg(3) 21 }
KeyWrapAlgorithmIdentifier ::= AlgorithmIdentifier
END
