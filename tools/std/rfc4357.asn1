-- RFC 4357, section 11; GOST R 34.10 parameters left out.
Cryptographic-Gost DEFINITIONS IMPLICIT TAGS ::= BEGIN
IMPORTS AlgorithmIdentifier FROM rfc5280;
id-CryptoPro OBJECT IDENTIFIER ::= { iso(1) member-body(2) ru(643) rans(2) cryptopro(2) }
id-CryptoPro-algorithms OBJECT IDENTIFIER ::= { iso(1) member-body(2) ru(643) rans(2) cryptopro(2) }
id-CryptoPro-modules OBJECT IDENTIFIER ::= { id-CryptoPro other(1) modules(1) }
id-CryptoPro-extensions OBJECT IDENTIFIER ::= { id-CryptoPro 34 }
id-CryptoPro-policyIds OBJECT IDENTIFIER ::= { id-CryptoPro 38 }
id-CryptoPro-policyQt OBJECT IDENTIFIER ::= { id-CryptoPro 39 }
cryptographic-Gost-Useful-Definitions OBJECT IDENTIFIER ::= { id-CryptoPro-modules 0 1 }
gostR3411-94-DigestSyntax OBJECT IDENTIFIER ::= { id-CryptoPro-modules 1 1 }
gostR3410-94-PKISyntax OBJECT IDENTIFIER ::= { id-CryptoPro-modules 2 1 }
gostR3410-94-SignatureSyntax OBJECT IDENTIFIER ::= { id-CryptoPro-modules 3 1 }
gost28147-89-EncryptionSyntax OBJECT IDENTIFIER ::= { id-CryptoPro-modules 4 1 }
gostR3410-EncryptionSyntax OBJECT IDENTIFIER ::= { id-CryptoPro-modules 5 2 }
gost28147-89-ParamSetSyntax OBJECT IDENTIFIER ::= { id-CryptoPro-modules 6 1 }
gostR3411-94-ParamSetSyntax OBJECT IDENTIFIER ::= { id-CryptoPro-modules 7 1 }
gostR3410-2001-PKISyntax OBJECT IDENTIFIER ::= { id-CryptoPro-modules 9 1 }
gostR3410-2001-SignatureSyntax OBJECT IDENTIFIER ::= { id-CryptoPro-modules 10 1 }
gostR3410-2001-ParamSetSyntax OBJECT IDENTIFIER ::= { id-CryptoPro-modules 12 1 }
gost-CryptoPro-ExtendedKeyUsage OBJECT IDENTIFIER ::= { id-CryptoPro-modules 13 1 }
gost-CryptoPro-PrivateKey OBJECT IDENTIFIER ::= { id-CryptoPro-modules 14 1 }
gost-CryptoPro-PKIXCMP OBJECT IDENTIFIER ::= { id-CryptoPro-modules 15 1 }
gost-CryptoPro-TLS OBJECT IDENTIFIER ::= { id-CryptoPro-modules 16 1 }
gost-CryptoPro-Policy OBJECT IDENTIFIER ::= { id-CryptoPro-modules 17 1 }
gost-CryptoPro-Constants OBJECT IDENTIFIER ::= { id-CryptoPro-modules 18 1 }
id-GostR3411-94-with-GostR3410-2001 OBJECT IDENTIFIER ::= { id-CryptoPro-algorithms 3 }
id-GostR3411-94-with-GostR3410-94 OBJECT IDENTIFIER ::= { id-CryptoPro-algorithms 4 }
id-GostR3411-94 OBJECT IDENTIFIER ::= { id-CryptoPro-algorithms 9 }
id-Gost28147-89-None-KeyMeshing OBJECT IDENTIFIER ::= { id-CryptoPro-algorithms 14 0 }
id-Gost28147-89-CryptoPro-KeyMeshing OBJECT IDENTIFIER ::= { id-CryptoPro-algorithms 14 1 }
id-GostR3410-2001 OBJECT IDENTIFIER ::= { id-CryptoPro-algorithms 19 }
id-GostR3410-94 OBJECT IDENTIFIER ::= { id-CryptoPro-algorithms 20 }
id-Gost28147-89 OBJECT IDENTIFIER ::= { id-CryptoPro-algorithms 21 }
id-Gost28147-89-MAC OBJECT IDENTIFIER ::= { id-CryptoPro-algorithms 22 }
id-CryptoPro-hashes OBJECT IDENTIFIER ::= { id-CryptoPro-algorithms 30 }
id-CryptoPro-encrypts OBJECT IDENTIFIER ::= { id-CryptoPro-algorithms 31 }
id-CryptoPro-signs OBJECT IDENTIFIER ::= { id-CryptoPro-algorithms 32 }
id-CryptoPro-exchanges OBJECT IDENTIFIER ::= { id-CryptoPro-algorithms 33 }
id-CryptoPro-ecc-signs OBJECT IDENTIFIER ::= { id-CryptoPro-algorithms 35 }
id-CryptoPro-ecc-exchanges OBJECT IDENTIFIER ::= { id-CryptoPro-algorithms 36 }
id-CryptoPro-private-keys OBJECT IDENTIFIER ::= { id-CryptoPro-algorithms 37 }
id-CryptoPro-pkixcmp-infos OBJECT IDENTIFIER ::= { id-CryptoPro-algorithms 41 }
id-CryptoPro-audit-service-types OBJECT IDENTIFIER ::= { id-CryptoPro-algorithms 42 }
id-CryptoPro-audit-record-types OBJECT IDENTIFIER ::= { id-CryptoPro-algorithms 43 }
id-CryptoPro-attributes OBJECT IDENTIFIER ::= { id-CryptoPro-algorithms 44 }
id-CryptoPro-name-service-types OBJECT IDENTIFIER ::= { id-CryptoPro-algorithms 45 }
id-GostR3410-2001DH OBJECT IDENTIFIER ::= { id-CryptoPro-algorithms 98 }
id-GostR3410-94DH OBJECT IDENTIFIER ::= { id-CryptoPro-algorithms 99 }
id-Gost28147-89-TestParamSet OBJECT IDENTIFIER ::= { id-CryptoPro-encrypts 0 }
id-Gost28147-89-CryptoPro-A-ParamSet OBJECT IDENTIFIER ::= { id-CryptoPro-encrypts 1 }
id-Gost28147-89-CryptoPro-B-ParamSet OBJECT IDENTIFIER ::= { id-CryptoPro-encrypts 2 }
id-Gost28147-89-CryptoPro-C-ParamSet OBJECT IDENTIFIER ::= { id-CryptoPro-encrypts 3 }
id-Gost28147-89-CryptoPro-D-ParamSet OBJECT IDENTIFIER ::= { id-CryptoPro-encrypts 4 }
id-Gost28147-89-CryptoPro-Oscar-1-1-ParamSet OBJECT IDENTIFIER ::= { id-CryptoPro-encrypts 5 }
id-Gost28147-89-CryptoPro-Oscar-1-0-ParamSet OBJECT IDENTIFIER ::= { id-CryptoPro-encrypts 6 }
id-Gost28147-89-CryptoPro-RIC-1-ParamSet OBJECT IDENTIFIER ::= { id-CryptoPro-encrypts 7 }
id-GostR3410-2001-TestParamSet OBJECT IDENTIFIER ::= { id-CryptoPro-ecc-signs 0 }
id-GostR3410-2001-CryptoPro-A-ParamSet OBJECT IDENTIFIER ::= { id-CryptoPro-ecc-signs 1 }
id-GostR3410-2001-CryptoPro-B-ParamSet OBJECT IDENTIFIER ::= { id-CryptoPro-ecc-signs 2 }
id-GostR3410-2001-CryptoPro-C-ParamSet OBJECT IDENTIFIER ::= { id-CryptoPro-ecc-signs 3 }
id-GostR3410-2001-CryptoPro-XchA-ParamSet OBJECT IDENTIFIER ::= { id-CryptoPro-ecc-exchanges 0 }
id-GostR3410-2001-CryptoPro-XchB-ParamSet OBJECT IDENTIFIER ::= { id-CryptoPro-ecc-exchanges 1 }
id-GostR3410-94-TestParamSet OBJECT IDENTIFIER ::= { id-CryptoPro-signs 0 }
id-GostR3410-94-CryptoPro-A-ParamSet OBJECT IDENTIFIER ::= { id-CryptoPro-signs 2 }
id-GostR3410-94-CryptoPro-B-ParamSet OBJECT IDENTIFIER ::= { id-CryptoPro-signs 3 }
id-GostR3410-94-CryptoPro-C-ParamSet OBJECT IDENTIFIER ::= { id-CryptoPro-signs 4 }
id-GostR3410-94-CryptoPro-D-ParamSet OBJECT IDENTIFIER ::= { id-CryptoPro-signs 5 }
id-GostR3410-94-CryptoPro-XchA-ParamSet OBJECT IDENTIFIER ::= { id-CryptoPro-exchanges 1 }
id-GostR3410-94-CryptoPro-XchB-ParamSet OBJECT IDENTIFIER ::= { id-CryptoPro-exchanges 2 }
id-GostR3410-94-CryptoPro-XchC-ParamSet OBJECT IDENTIFIER ::= { id-CryptoPro-exchanges 3 }
id-GostR3410-94-a OBJECT IDENTIFIER ::= { id-GostR3410-94 1 }
id-GostR3410-94-aBis OBJECT IDENTIFIER ::= { id-GostR3410-94 2 }
id-GostR3410-94-b OBJECT IDENTIFIER ::= { id-GostR3410-94 3 }
id-GostR3410-94-bBis OBJECT IDENTIFIER ::= { id-GostR3410-94 4 }
id-GostR3411-94-TestParamSet OBJECT IDENTIFIER ::= { id-CryptoPro-hashes 0 }
id-GostR3411-94-CryptoProParamSet OBJECT IDENTIFIER ::= { id-CryptoPro-hashes 1 }
Gost28147-89-UZ ::= OCTET STRING (SIZE (64))
Gost28147-89-IV ::= OCTET STRING (SIZE (8))
Gost28147-89-Key ::= OCTET STRING (SIZE (32))
Gost28147-89-MAC ::= OCTET STRING (SIZE (1..4))
Gost28147-89-EncryptedKey ::= SEQUENCE {
  encryptedKey Gost28147-89-Key,
  maskKey [0] IMPLICIT Gost28147-89-Key OPTIONAL,
  macKey Gost28147-89-MAC (SIZE (4)) }
Gost28147-89-ParamSet ::= OBJECT IDENTIFIER (id-Gost28147-89-TestParamSet | id-Gost28147-89-CryptoPro-A-ParamSet |
  id-Gost28147-89-CryptoPro-B-ParamSet | id-Gost28147-89-CryptoPro-C-ParamSet | id-Gost28147-89-CryptoPro-D-ParamSet |
  id-Gost28147-89-CryptoPro-Oscar-1-1-ParamSet | id-Gost28147-89-CryptoPro-Oscar-1-0-ParamSet | id-Gost28147-89-CryptoPro-RIC-1-ParamSet)
Gost28147-89-BlobParameters ::= SEQUENCE {
  encryptionParamSet Gost28147-89-ParamSet, ... }
Gost28147-89-Parameters ::= SEQUENCE {
  iv Gost28147-89-IV,
  encryptionParamSet Gost28147-89-ParamSet }
GostR3411-94-Digest ::= OCTET STRING (SIZE (32))
GostR3411-94-ParamSetParameters ::= SEQUENCE {
  hUZ Gost28147-89-UZ,
  h0 GostR3411-94-Digest }
END
