-- A name is a string of octets.
PKIXCRMF DEFINITIONS IMPLICIT TAGS ::= BEGIN
GeneralName ::= OCTET STRING
CertReqMsg ::= SEQUENCE {
  certReq CertRequest,
  pop ProofOfPossession OPTIONAL,
  regInfo SEQUENCE SIZE (1..MAX) OF AttributeTypeAndValue OPTIONAL }
END
