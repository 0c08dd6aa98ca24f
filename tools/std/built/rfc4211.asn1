PKIXCRMF-2005 DEFINITIONS IMPLICIT TAGS ::= BEGIN
CertReqMsg ::= SEQUENCE {
  certReq CertRequest,
  popo ProofOfPossession OPTIONAL,
  regInfo SEQUENCE OF AttributeTypeAndValue OPTIONAL }
PKIPublicationInfo ::= SEQUENCE {
  action INTEGER { dontPublish(0), pleasePublish(1) },
  pubInfos SEQUENCE OF SinglePubInfo OPTIONAL }
END
