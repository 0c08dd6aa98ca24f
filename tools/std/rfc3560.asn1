-- RFC 3560; the definitions are those of RFC 4055.
CMSAlgorithmsRSAESOAEP DEFINITIONS IMPLICIT TAGS ::= BEGIN
IMPORTS RSAES-OAEP-params, rsaEncryption, id-RSAES-OAEP, id-mgf1, id-pSpecified, id-sha1, id-sha256, id-sha384, id-sha512,
  sha1Identifier, sha256Identifier, sha384Identifier, sha512Identifier, mgf1SHA1Identifier, mgf1SHA256Identifier,
  mgf1SHA384Identifier, mgf1SHA512Identifier, pSpecifiedEmptyIdentifier, rSAES-OAEP-Default-Identifier,
  rSAES-OAEP-Default-Params, rSAES-OAEP-SHA256-Identifier, rSAES-OAEP-SHA256-Params, rSAES-OAEP-SHA384-Identifier,
  rSAES-OAEP-SHA384-Params, rSAES-OAEP-SHA512-Identifier, rSAES-OAEP-SHA512-Params FROM rfc4055;
END
