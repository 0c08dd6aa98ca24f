-- Restrictions left out.
PKIX1Explicit88 DEFINITIONS EXPLICIT TAGS ::= BEGIN
UnformattedPostalAddress ::= SET {
  printable-address SEQUENCE OF PrintableString (SIZE (1..ub-pds-parameter-length)) OPTIONAL,
  teletex-string TeletexString (SIZE (1..ub-unformatted-address-length)) OPTIONAL }
PresentationAddress ::= SEQUENCE {
  pSelector [0] OCTET STRING OPTIONAL,
  sSelector [1] OCTET STRING OPTIONAL,
  tSelector [2] OCTET STRING OPTIONAL,
  nAddresses [3] SET OF OCTET STRING }
TerminalType ::= INTEGER { telex(3), teletex(4), g3-facsimile(5), g4-facsimile(6), ia5-terminal(7), videotex(8) }
PolicyQualifierId ::= OBJECT IDENTIFIER
PolicyInformation ::= SEQUENCE {
  policyIdentifier CertPolicyId,
  policyQualifiers SEQUENCE OF PolicyQualifierInfo OPTIONAL }
END
