-- RFC 5126, appendix A.1.
ETS-ElectronicSignatureFormats-ExplicitSyntax88 DEFINITIONS EXPLICIT TAGS ::= BEGIN
IMPORTS ContentInfo, ContentType, id-data, id-signedData, SignedData, EncapsulatedContentInfo, SignerInfo, id-messageDigest,
  MessageDigest, id-signingTime, SigningTime, id-countersignature, Countersignature FROM rfc5652
  id-aa-signingCertificate, SigningCertificate, IssuerSerial, id-aa-contentReference, ContentReference,
  id-aa-contentIdentifier, ContentIdentifier, id-aa-signingCertificateV2 FROM rfc5035
  Certificate, AlgorithmIdentifier, CertificateList, Name, DirectoryString, Attribute, GeneralNames, GeneralName,
  PolicyInformation FROM rfc5280
  AttributeCertificate FROM rfc5755
  BasicOCSPResponse, ResponderID FROM rfc6960
  TimeStampToken FROM rfc3161;
id-etsi-es-IDUP-Mechanism-v1 OBJECT IDENTIFIER ::= { itu-t(0) identified-organization(4) etsi(0) electronic-signature-standard(1733) part1(1) idupMechanism(4) etsiESv1(1) }
id-aa OBJECT IDENTIFIER ::= { iso(1) member-body(2) us(840) rsadsi(113549) pkcs(1) pkcs-9(9) smime(16) 2 }
id-aa-ets-otherSigCert OBJECT IDENTIFIER ::= { id-aa 19 }
OtherSigningCertificate ::= SEQUENCE {
  certs SEQUENCE OF OtherCertID,
  policies SEQUENCE OF PolicyInformation OPTIONAL }
OtherCertID ::= SEQUENCE {
  otherCertHash OtherHash,
  issuerSerial IssuerSerial OPTIONAL }
OtherHash ::= CHOICE {
  sha1Hash OtherHashValue,
  otherHash OtherHashAlgAndValue }
OtherHashValue ::= OCTET STRING
OtherHashAlgAndValue ::= SEQUENCE {
  hashAlgorithm AlgorithmIdentifier,
  hashValue OtherHashValue }
id-aa-ets-sigPolicyId OBJECT IDENTIFIER ::= { id-aa 15 }
SignaturePolicy ::= CHOICE {
  signaturePolicyId SignaturePolicyId,
  signaturePolicyImplied SignaturePolicyImplied }
SignaturePolicyId ::= SEQUENCE {
  sigPolicyId SigPolicyId,
  sigPolicyHash SigPolicyHash,
  sigPolicyQualifiers SEQUENCE SIZE (1..MAX) OF SigPolicyQualifierInfo OPTIONAL }
SignaturePolicyImplied ::= NULL
SigPolicyId ::= OBJECT IDENTIFIER
SigPolicyHash ::= OtherHashAlgAndValue
SigPolicyQualifierInfo ::= SEQUENCE {
  sigPolicyQualifierId SigPolicyQualifierId,
  sigQualifier ANY DEFINED BY sigPolicyQualifierId }
SigPolicyQualifierId ::= OBJECT IDENTIFIER
id-spq-ets-uri OBJECT IDENTIFIER ::= { iso(1) member-body(2) us(840) rsadsi(113549) pkcs(1) pkcs9(9) smime(16) id-spq(5) 1 }
SPuri ::= IA5String
id-spq-ets-unotice OBJECT IDENTIFIER ::= { iso(1) member-body(2) us(840) rsadsi(113549) pkcs(1) pkcs9(9) smime(16) id-spq(5) 2 }
SPUserNotice ::= SEQUENCE {
  noticeRef NoticeReference OPTIONAL,
  explicitText DisplayText OPTIONAL }
NoticeReference ::= SEQUENCE {
  organization DisplayText,
  noticeNumbers SEQUENCE OF INTEGER }
DisplayText ::= CHOICE {
  visibleString VisibleString (SIZE (1..200)),
  bmpString BMPString (SIZE (1..200)),
  utf8String UTF8String (SIZE (1..200)) }
id-aa-ets-commitmentType OBJECT IDENTIFIER ::= { id-aa 16 }
CommitmentTypeIndication ::= SEQUENCE {
  commitmentTypeId CommitmentTypeIdentifier,
  commitmentTypeQualifier SEQUENCE SIZE (1..MAX) OF CommitmentTypeQualifier OPTIONAL }
CommitmentTypeIdentifier ::= OBJECT IDENTIFIER
CommitmentTypeQualifier ::= SEQUENCE {
  commitmentTypeIdentifier CommitmentTypeIdentifier,
  qualifier ANY DEFINED BY commitmentTypeIdentifier }
id-cti OBJECT IDENTIFIER ::= { iso(1) member-body(2) us(840) rsadsi(113549) pkcs(1) pkcs-9(9) smime(16) 6 }
id-cti-ets-proofOfOrigin OBJECT IDENTIFIER ::= { id-cti 1 }
id-cti-ets-proofOfReceipt OBJECT IDENTIFIER ::= { id-cti 2 }
id-cti-ets-proofOfDelivery OBJECT IDENTIFIER ::= { id-cti 3 }
id-cti-ets-proofOfSender OBJECT IDENTIFIER ::= { id-cti 4 }
id-cti-ets-proofOfApproval OBJECT IDENTIFIER ::= { id-cti 5 }
id-cti-ets-proofOfCreation OBJECT IDENTIFIER ::= { id-cti 6 }
id-aa-ets-signerLocation OBJECT IDENTIFIER ::= { id-aa 17 }
SignerLocation ::= SEQUENCE {
  countryName [0] DirectoryString OPTIONAL,
  localityName [1] DirectoryString OPTIONAL,
  postalAdddress [2] PostalAddress OPTIONAL }
PostalAddress ::= SEQUENCE SIZE (1..6) OF DirectoryString
id-aa-ets-signerAttr OBJECT IDENTIFIER ::= { id-aa 18 }
SignerAttribute ::= SEQUENCE OF CHOICE {
  claimedAttributes [0] ClaimedAttributes,
  certifiedAttributes [1] CertifiedAttributes }
ClaimedAttributes ::= SEQUENCE OF Attribute
CertifiedAttributes ::= AttributeCertificate
id-aa-ets-contentTimestamp OBJECT IDENTIFIER ::= { id-aa 20 }
ContentTimestamp ::= TimeStampToken
id-aa-signatureTimeStampToken OBJECT IDENTIFIER ::= { id-aa 14 }
SignatureTimeStampToken ::= TimeStampToken
id-aa-ets-certificateRefs OBJECT IDENTIFIER ::= { id-aa 21 }
CompleteCertificateRefs ::= SEQUENCE OF OtherCertID
id-aa-ets-revocationRefs OBJECT IDENTIFIER ::= { id-aa 22 }
CompleteRevocationRefs ::= SEQUENCE OF CrlOcspRef
CrlOcspRef ::= SEQUENCE {
  crlids [0] CRLListID OPTIONAL,
  ocspids [1] OcspListID OPTIONAL,
  otherRev [2] OtherRevRefs OPTIONAL }
CRLListID ::= SEQUENCE {
  crls SEQUENCE OF CrlValidatedID }
CrlValidatedID ::= SEQUENCE {
  crlHash OtherHash,
  crlIdentifier CrlIdentifier OPTIONAL }
CrlIdentifier ::= SEQUENCE {
  crlissuer Name,
  crlIssuedTime UTCTime,
  crlNumber INTEGER OPTIONAL }
OcspListID ::= SEQUENCE {
  ocspResponses SEQUENCE OF OcspResponsesID }
OcspResponsesID ::= SEQUENCE {
  ocspIdentifier OcspIdentifier,
  ocspRepHash OtherHash OPTIONAL }
OcspIdentifier ::= SEQUENCE {
  ocspResponderID ResponderID,
  producedAt GeneralizedTime }
OtherRevRefs ::= SEQUENCE {
  otherRevRefType OtherRevRefType,
  otherRevRefs ANY DEFINED BY otherRevRefType }
OtherRevRefType ::= OBJECT IDENTIFIER
id-aa-ets-certValues OBJECT IDENTIFIER ::= { id-aa 23 }
CertificateValues ::= SEQUENCE OF Certificate
id-aa-ets-revocationValues OBJECT IDENTIFIER ::= { id-aa 24 }
RevocationValues ::= SEQUENCE {
  crlVals [0] SEQUENCE OF CertificateList OPTIONAL,
  ocspVals [1] SEQUENCE OF BasicOCSPResponse OPTIONAL,
  otherRevVals [2] OtherRevVals OPTIONAL }
OtherRevVals ::= SEQUENCE {
  otherRevValType OtherRevValType,
  otherRevVals ANY DEFINED BY otherRevValType }
OtherRevValType ::= OBJECT IDENTIFIER
id-aa-ets-escTimeStamp OBJECT IDENTIFIER ::= { id-aa 25 }
ESCTimeStampToken ::= TimeStampToken
id-aa-ets-certCRLTimestamp OBJECT IDENTIFIER ::= { id-aa 26 }
TimestampedCertsCRLs ::= TimeStampToken
id-aa-ets-archiveTimestampV2 OBJECT IDENTIFIER ::= { id-aa 48 }
ArchiveTimeStampToken ::= TimeStampToken
id-aa-ets-attrCertificateRefs OBJECT IDENTIFIER ::= { id-aa 44 }
AttributeCertificateRefs ::= SEQUENCE OF OtherCertID
id-aa-ets-attrRevocationRefs OBJECT IDENTIFIER ::= { id-aa 45 }
AttributeRevocationRefs ::= SEQUENCE OF CrlOcspRef
END
