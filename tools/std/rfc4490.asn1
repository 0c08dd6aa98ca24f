-- RFC 4490.
CMS-GOST DEFINITIONS IMPLICIT TAGS ::= BEGIN
IMPORTS Gost28147-89-ParamSet, Gost28147-89-EncryptedKey, id-GostR3410-94, id-GostR3410-2001 FROM rfc4357
  SubjectPublicKeyInfo FROM rfc5280;
id-CryptoPro-algorithms OBJECT IDENTIFIER ::= { iso(1) member-body(2) ru(643) rans(2) cryptopro(2) }
id-Gost28147-89-CryptoPro-KeyWrap OBJECT IDENTIFIER ::= { id-CryptoPro-algorithms keyWrap(13) cryptoPro(1) }
id-Gost28147-89-None-KeyWrap OBJECT IDENTIFIER ::= { id-CryptoPro-algorithms keyWrap(13) none(0) }
id-GostR3410-2001-CryptoPro-ESDH OBJECT IDENTIFIER ::= { id-CryptoPro-algorithms 96 }
id-GostR3410-94-CryptoPro-ESDH OBJECT IDENTIFIER ::= { id-CryptoPro-algorithms 97 }
Gost28147-89-KeyWrapParameters ::= SEQUENCE {
  encryptionParamSet Gost28147-89-ParamSet,
  ukm OCTET STRING (SIZE (8)) OPTIONAL }
GostR3410-TransportParameters ::= SEQUENCE {
  encryptionParamSet Gost28147-89-ParamSet,
  ephemeralPublicKey [0] IMPLICIT SubjectPublicKeyInfo OPTIONAL,
  ukm OCTET STRING (SIZE (8)) }
GostR3410-KeyTransport ::= SEQUENCE {
  sessionEncryptedKey Gost28147-89-EncryptedKey,
  transportParameters [0] IMPLICIT GostR3410-TransportParameters OPTIONAL }
GostR3410-94-Signature ::= OCTET STRING (SIZE (64))
GostR3410-2001-Signature ::= OCTET STRING (SIZE (64))
END
