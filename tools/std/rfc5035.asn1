-- RFC 5035, appendix A; what it repeats from RFC 2634 is imported.
ExtendedSecurityServices-2006 DEFINITIONS IMPLICIT TAGS ::= BEGIN
IMPORTS ContentType, IssuerAndSerialNumber, SubjectKeyIdentifier FROM rfc5652
  AlgorithmIdentifier, PolicyInformation, CertificateSerialNumber, GeneralNames FROM rfc5280
  AllOrFirstTier, ContentHints, ContentIdentifier, ContentReference, ESSCertID, ESSPrivacyMark, ESSSecurityLabel, ESSVersion,
  EntityIdentifier, EquivalentLabels, Hash, IssuerSerial, MLData, MLExpansionHistory, MLReceiptPolicy, MsgSigDigest, Receipt,
  ReceiptRequest, ReceiptsFrom, SecurityCategories, SecurityCategory, SecurityClassification, SecurityPolicyIdentifier,
  SigningCertificate, id-aa-contentHint, id-aa-contentIdentifier, id-aa-contentReference, id-aa-equivalentLabels,
  id-aa-mlExpandHistory, id-aa-msgSigDigest, id-aa-receiptRequest, id-aa-securityLabel, id-aa-signingCertificate,
  id-ct-receipt, ub-integer-options, ub-ml-expansion-history, ub-privacy-mark-length, ub-receiptsTo,
  ub-security-categories FROM rfc2634;
id-sha256 OBJECT IDENTIFIER ::= { joint-iso-itu-t(2) country(16) us(840) organization(1) gov(101) csor(3) nistalgorithm(4) hashalgs(2) 1 }
SigningCertificateV2 ::= SEQUENCE {
  certs SEQUENCE OF ESSCertIDv2,
  policies SEQUENCE OF PolicyInformation OPTIONAL }
id-aa-signingCertificateV2 OBJECT IDENTIFIER ::= { iso(1) member-body(2) us(840) rsadsi(113549) pkcs(1) pkcs9(9) smime(16) id-aa(2) 47 }
ESSCertIDv2 ::= SEQUENCE {
  hashAlgorithm AlgorithmIdentifier DEFAULT { algorithm id-sha256 },
  certHash Hash,
  issuerSerial IssuerSerial OPTIONAL }
END
