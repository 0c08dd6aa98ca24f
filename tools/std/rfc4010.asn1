-- RFC 4010.
SeedEncryptionAlgorithmInCMS DEFINITIONS IMPLICIT TAGS ::= BEGIN
id-seedCBC OBJECT IDENTIFIER ::= { iso(1) member-body(2) korea(410) kisa(200004) algorithm(1) seedCBC(4) }
SeedCBCParameter ::= SeedIV
SeedIV ::= OCTET STRING (SIZE (16))
SeedSMimeCapability ::= NULL
id-npki-app-cmsSeed-wrap OBJECT IDENTIFIER ::= { iso(1) member-body(2) korea(410) kisa(200004) npki-app(7) smime(1) alg(1) cmsSEED-wrap(1) }
END
