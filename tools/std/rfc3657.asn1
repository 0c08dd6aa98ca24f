-- RFC 3657.
CamelliaEncryptionAlgorithmInCMS DEFINITIONS IMPLICIT TAGS ::= BEGIN
id-camellia128-cbc OBJECT IDENTIFIER ::= { iso(1) member-body(2) 392 200011 61 security(1) algorithm(1) symmetric-encryption-algorithm(1) camellia128-cbc(2) }
id-camellia192-cbc OBJECT IDENTIFIER ::= { iso(1) member-body(2) 392 200011 61 security(1) algorithm(1) symmetric-encryption-algorithm(1) camellia192-cbc(3) }
id-camellia256-cbc OBJECT IDENTIFIER ::= { iso(1) member-body(2) 392 200011 61 security(1) algorithm(1) symmetric-encryption-algorithm(1) camellia256-cbc(4) }
Camellia-IV ::= OCTET STRING (SIZE (16))
CamelliaSMimeCapability ::= NULL
id-camellia128-wrap OBJECT IDENTIFIER ::= { iso(1) member-body(2) 392 200011 61 security(1) algorithm(1) key-wrap-algorithm(3) camellia128-wrap(2) }
id-camellia192-wrap OBJECT IDENTIFIER ::= { iso(1) member-body(2) 392 200011 61 security(1) algorithm(1) key-wrap-algorithm(3) camellia192-wrap(3) }
id-camellia256-wrap OBJECT IDENTIFIER ::= { iso(1) member-body(2) 392 200011 61 security(1) algorithm(1) key-wrap-algorithm(3) camellia256-wrap(4) }
END
