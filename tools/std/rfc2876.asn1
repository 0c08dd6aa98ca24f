-- RFC 2876.
KEA-SKIPJACK DEFINITIONS EXPLICIT TAGS ::= BEGIN
id-keyExchangeAlgorithm OBJECT IDENTIFIER ::= { 2 16 840 1 101 2 1 1 22 }
id-fortezzaWrap80 OBJECT IDENTIFIER ::= { 2 16 840 1 101 2 1 1 23 }
id-kEAKeyEncryptionAlgorithm OBJECT IDENTIFIER ::= { 2 16 840 1 101 2 1 1 24 }
id-fortezzaConfidentialityAlgorithm OBJECT IDENTIFIER ::= { 2 16 840 1 101 2 1 1 4 }
Skipjack-Parm ::= SEQUENCE {
  initialization-vector OCTET STRING }
END
