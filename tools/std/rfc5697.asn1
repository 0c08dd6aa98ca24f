-- RFC 5697.
OtherCerts DEFINITIONS EXPLICIT TAGS ::= BEGIN
IMPORTS AlgorithmIdentifier, GeneralNames, CertificateSerialNumber FROM rfc5280;
id-sha1 OBJECT IDENTIFIER ::= { iso(1) identified-organization(3) oiw(14) secsig(3) algorithms(2) 26 }
id-pe-otherCerts OBJECT IDENTIFIER ::= { iso(1) identified-organization(3) dod(6) internet(1) security(5) mechanisms(5) pkix(7) pe(1) 19 }
OtherCertificates ::= SEQUENCE OF SCVPCertID
SCVPCertID ::= SEQUENCE {
  certHash OCTET STRING,
  issuerSerial SCVPIssuerSerial,
  hashAlgorithm AlgorithmIdentifier DEFAULT { algorithm id-sha1 } }
SCVPIssuerSerial ::= SEQUENCE {
  issuer GeneralNames,
  serialNumber CertificateSerialNumber }
END
