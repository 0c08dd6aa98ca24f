-- No size for the MAC of an encrypted key; the parameters of GOST R 34.10.
Cryptographic-Gost DEFINITIONS IMPLICIT TAGS ::= BEGIN
Gost28147-89-EncryptedKey ::= SEQUENCE {
  encryptedKey Gost28147-89-Key,
  maskKey [0] IMPLICIT Gost28147-89-Key OPTIONAL,
  macKey Gost28147-89-MAC }
Gost28147-89-ParamSetParameters ::= SEQUENCE {
  eUZ Gost28147-89-UZ,
  mode INTEGER { gost28147-89-CNT(0), gost28147-89-CFB(1), cryptoPro-CBC(2) },
  shiftBits INTEGER { gost28147-89-block(64) },
  keyMeshing AlgorithmIdentifier }
GostR3410-2001-CertificateSignature ::= BIT STRING (SIZE (256..512))
GostR3410-2001-ParamSetParameters ::= SEQUENCE {
  a INTEGER,
  b INTEGER,
  p INTEGER,
  q INTEGER,
  x INTEGER,
  y INTEGER }
GostR3410-2001-PublicKey ::= OCTET STRING (SIZE (64))
GostR3410-2001-PublicKeyParameters ::= SEQUENCE {
  publicKeyParamSet OBJECT IDENTIFIER (id-GostR3410-2001-TestParamSet | id-GostR3410-2001-CryptoPro-A-ParamSet |
    id-GostR3410-2001-CryptoPro-B-ParamSet | id-GostR3410-2001-CryptoPro-C-ParamSet |
    id-GostR3410-2001-CryptoPro-XchA-ParamSet | id-GostR3410-2001-CryptoPro-XchB-ParamSet),
  digestParamSet OBJECT IDENTIFIER (id-GostR3411-94-TestParamSet | id-GostR3411-94-CryptoProParamSet),
  encryptionParamSet Gost28147-89-ParamSet DEFAULT id-Gost28147-89-CryptoPro-A-ParamSet }
GostR3410-94-CertificateSignature ::= BIT STRING (SIZE (256..512))
GostR3410-94-ParamSetParameters-t ::= INTEGER (512 | 1024)
GostR3410-94-ParamSetParameters ::= SEQUENCE {
  t GostR3410-94-ParamSetParameters-t,
  p INTEGER,
  q INTEGER,
  a INTEGER,
  validationAlgorithm AlgorithmIdentifier OPTIONAL }
GostR3410-94-PublicKey ::= OCTET STRING (SIZE (64) | SIZE (128))
GostR3410-94-PublicKeyParameters ::= SEQUENCE {
  publicKeyParamSet OBJECT IDENTIFIER (id-GostR3410-94-TestParamSet | id-GostR3410-94-CryptoPro-A-ParamSet |
    id-GostR3410-94-CryptoPro-B-ParamSet | id-GostR3410-94-CryptoPro-C-ParamSet | id-GostR3410-94-CryptoPro-D-ParamSet |
    id-GostR3410-94-CryptoPro-XchA-ParamSet | id-GostR3410-94-CryptoPro-XchB-ParamSet |
    id-GostR3410-94-CryptoPro-XchC-ParamSet),
  digestParamSet OBJECT IDENTIFIER (id-GostR3411-94-TestParamSet | id-GostR3411-94-CryptoProParamSet),
  encryptionParamSet Gost28147-89-ParamSet DEFAULT id-Gost28147-89-CryptoPro-A-ParamSet }
GostR3410-94-ValidationBisParameters-c ::= INTEGER (0..4294967295)
GostR3410-94-ValidationBisParameters ::= SEQUENCE {
  x0 GostR3410-94-ValidationBisParameters-c,
  c GostR3410-94-ValidationBisParameters-c,
  d INTEGER OPTIONAL }
GostR3410-94-ValidationParameters-c ::= INTEGER (0..65535)
GostR3410-94-ValidationParameters ::= SEQUENCE {
  x0 GostR3410-94-ValidationParameters-c,
  c GostR3410-94-ValidationParameters-c,
  d INTEGER OPTIONAL }
GostR3411-94-DigestParameters ::= OBJECT IDENTIFIER ((id-GostR3411-94-TestParamSet) | (id-GostR3411-94-CryptoProParamSet))
END
