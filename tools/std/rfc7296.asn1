-- RFC 7296, section 3.6.
CertBundle DEFINITIONS EXPLICIT TAGS ::= BEGIN
IMPORTS Certificate, CertificateList FROM rfc5280;
CertificateOrCRL ::= CHOICE {
  cert [0] Certificate,
  crl [1] CertificateList }
CertificateBundle ::= SEQUENCE OF CertificateOrCRL
END
