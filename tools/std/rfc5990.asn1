-- RFC 5990, appendix B.
CMS-RSA-KEM DEFINITIONS EXPLICIT TAGS ::= BEGIN
IMPORTS AlgorithmIdentifier FROM rfc5280;
NullParms ::= NULL
is18033-2 OBJECT IDENTIFIER ::= { iso(1) standard(0) is18033(18033) part2(2) }
nistAlgorithm OBJECT IDENTIFIER ::= { joint-iso-itu-t(2) country(16) us(840) organization(1) gov(101) csor(3) 4 }
pkcs-1 OBJECT IDENTIFIER ::= { iso(1) member-body(2) us(840) rsadsi(113549) pkcs(1) 1 }
x9-44 OBJECT IDENTIFIER ::= { iso(1) identified-organization(3) tc68(133) country(16) x9(840) x9Standards(9) x9-44(44) }
x9-44-components OBJECT IDENTIFIER ::= { x9-44 components(1) }
id-rsa-kem OBJECT IDENTIFIER ::= { iso(1) member-body(2) us(840) rsadsi(113549) pkcs(1) pkcs9(9) smime(16) alg(3) 14 }
GenericHybridParameters ::= SEQUENCE {
  kem KeyEncapsulationMechanism,
  dem DataEncapsulationMechanism }
KeyEncapsulationMechanism ::= AlgorithmIdentifier
id-kem-rsa OBJECT IDENTIFIER ::= { is18033-2 key-encapsulation-mechanism(2) rsa(4) }
RsaKemParameters ::= SEQUENCE {
  keyDerivationFunction KeyDerivationFunction,
  keyLength KeyLength }
KeyDerivationFunction ::= AlgorithmIdentifier
KeyLength ::= INTEGER (1..MAX)
id-kdf-kdf2 OBJECT IDENTIFIER ::= { x9-44-components kdf2(1) }
KDF2-HashFunction ::= AlgorithmIdentifier
id-kdf-kdf3 OBJECT IDENTIFIER ::= { x9-44-components kdf3(2) }
KDF3-HashFunction ::= AlgorithmIdentifier
id-sha1 OBJECT IDENTIFIER ::= { iso(1) identified-organization(3) oiw(14) secsig(3) algorithms(2) 26 }
id-sha224 OBJECT IDENTIFIER ::= { nistAlgorithm hashAlgs(2) sha224(4) }
id-sha256 OBJECT IDENTIFIER ::= { nistAlgorithm hashAlgs(2) sha256(1) }
id-sha384 OBJECT IDENTIFIER ::= { nistAlgorithm hashAlgs(2) sha384(2) }
id-sha512 OBJECT IDENTIFIER ::= { nistAlgorithm hashAlgs(2) sha512(3) }
DataEncapsulationMechanism ::= AlgorithmIdentifier
X9-SymmetricKeyWrappingScheme ::= AlgorithmIdentifier
id-aes128-Wrap OBJECT IDENTIFIER ::= { nistAlgorithm aes(1) aes128-Wrap(5) }
id-aes192-Wrap OBJECT IDENTIFIER ::= { nistAlgorithm aes(1) aes192-Wrap(25) }
id-aes256-Wrap OBJECT IDENTIFIER ::= { nistAlgorithm aes(1) aes256-Wrap(45) }
id-alg-CMS3DESwrap OBJECT IDENTIFIER ::= { iso(1) member-body(2) us(840) rsadsi(113549) pkcs(1) pkcs9(9) smime(16) alg(3) 6 }
Camellia-KeyWrappingScheme ::= AlgorithmIdentifier
id-camellia128-Wrap OBJECT IDENTIFIER ::= { iso(1) member-body(2) 392 200011 61 security(1) algorithm(1) key-wrap-algorithm(3) camellia128-wrap(2) }
id-camellia192-Wrap OBJECT IDENTIFIER ::= { iso(1) member-body(2) 392 200011 61 security(1) algorithm(1) key-wrap-algorithm(3) camellia192-wrap(3) }
id-camellia256-Wrap OBJECT IDENTIFIER ::= { iso(1) member-body(2) 392 200011 61 security(1) algorithm(1) key-wrap-algorithm(3) camellia256-wrap(4) }
END
