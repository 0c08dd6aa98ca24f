-- Identifiers and the types the standards associate with them: CLASS Type IDENTIFIED BY identifier, names as in the
-- ASN.1 of the module (or of the module in front of the dot; package.X is the class X, whose ASN.1 is not transcribed).

rfc2315
  PKCS7-CONTENT Data IDENTIFIED BY data
  PKCS7-CONTENT SignedData IDENTIFIED BY signedData
  PKCS7-CONTENT EnvelopedData IDENTIFIED BY envelopedData
  PKCS7-CONTENT SignedAndEnvelopedData IDENTIFIED BY signedAndEnvelopedData
  PKCS7-CONTENT DigestedData IDENTIFIED BY digestedData
  PKCS7-CONTENT EncryptedData IDENTIFIED BY encryptedData

rfc2459
  ATTRIBUTE-2459 X520name IDENTIFIED BY id-at-name
  ATTRIBUTE-2459 X520name IDENTIFIED BY id-at-surname
  ATTRIBUTE-2459 X520name IDENTIFIED BY id-at-givenName
  ATTRIBUTE-2459 X520name IDENTIFIED BY id-at-initials
  ATTRIBUTE-2459 X520name IDENTIFIED BY id-at-generationQualifier
  ATTRIBUTE-2459 X520CommonName IDENTIFIED BY id-at-commonName
  ATTRIBUTE-2459 X520LocalityName IDENTIFIED BY id-at-localityName
  ATTRIBUTE-2459 X520StateOrProvinceName IDENTIFIED BY id-at-stateOrProvinceName
  ATTRIBUTE-2459 X520OrganizationName IDENTIFIED BY id-at-organizationName
  ATTRIBUTE-2459 X520OrganizationalUnitName IDENTIFIED BY id-at-organizationalUnitName
  ATTRIBUTE-2459 X520Title IDENTIFIED BY id-at-title
  ATTRIBUTE-2459 X520dnQualifier IDENTIFIED BY id-at-dnQualifier
  ATTRIBUTE-2459 X520countryName IDENTIFIED BY id-at-countryName
  ATTRIBUTE-2459 Pkcs9email IDENTIFIED BY emailAddress
  EXTENSION-2459 AuthorityKeyIdentifier IDENTIFIED BY id-ce-authorityKeyIdentifier
  EXTENSION-2459 SubjectKeyIdentifier IDENTIFIED BY id-ce-subjectKeyIdentifier
  EXTENSION-2459 KeyUsage IDENTIFIED BY id-ce-keyUsage
  EXTENSION-2459 PrivateKeyUsagePeriod IDENTIFIED BY id-ce-privateKeyUsagePeriod
  EXTENSION-2459 CertificatePolicies IDENTIFIED BY id-ce-certificatePolicies
  EXTENSION-2459 PolicyMappings IDENTIFIED BY id-ce-policyMappings
  EXTENSION-2459 SubjectAltName IDENTIFIED BY id-ce-subjectAltName
  EXTENSION-2459 IssuerAltName IDENTIFIED BY id-ce-issuerAltName
  EXTENSION-2459 SubjectDirectoryAttributes IDENTIFIED BY id-ce-subjectDirectoryAttributes
  EXTENSION-2459 BasicConstraints IDENTIFIED BY id-ce-basicConstraints
  EXTENSION-2459 NameConstraints IDENTIFIED BY id-ce-nameConstraints
  EXTENSION-2459 PolicyConstraints IDENTIFIED BY id-ce-policyConstraints
  EXTENSION-2459 ExtKeyUsageSyntax IDENTIFIED BY id-ce-extKeyUsage
  EXTENSION-2459 CRLDistPointsSyntax IDENTIFIED BY id-ce-cRLDistributionPoints
  EXTENSION-2459 AuthorityInfoAccessSyntax IDENTIFIED BY id-pe-authorityInfoAccess
  EXTENSION-2459 CRLNumber IDENTIFIED BY id-ce-cRLNumber
  EXTENSION-2459 BaseCRLNumber IDENTIFIED BY id-ce-deltaCRLIndicator
  EXTENSION-2459 IssuingDistributionPoint IDENTIFIED BY id-ce-issuingDistributionPoint
  EXTENSION-2459 CRLReason IDENTIFIED BY id-ce-cRLReasons
  EXTENSION-2459 HoldInstructionCode IDENTIFIED BY id-ce-holdInstructionCode
  EXTENSION-2459 InvalidityDate IDENTIFIED BY id-ce-invalidityDate
  EXTENSION-2459 CertificateIssuer IDENTIFIED BY id-ce-certificateIssuer

rfc2634
  CMS-ATTRIBUTE SigningCertificate IDENTIFIED BY id-aa-signingCertificate
  CMS-ATTRIBUTE MLExpansionHistory IDENTIFIED BY id-aa-mlExpandHistory
  CMS-ATTRIBUTE ESSSecurityLabel IDENTIFIED BY id-aa-securityLabel
  CMS-ATTRIBUTE EquivalentLabels IDENTIFIED BY id-aa-equivalentLabels
  CMS-ATTRIBUTE ContentIdentifier IDENTIFIED BY id-aa-contentIdentifier
  CMS-ATTRIBUTE ContentReference IDENTIFIED BY id-aa-contentReference
  CMS-ATTRIBUTE MsgSigDigest IDENTIFIED BY id-aa-msgSigDigest
  CMS-ATTRIBUTE ContentHints IDENTIFIED BY id-aa-contentHint
  CMS-ATTRIBUTE ReceiptRequest IDENTIFIED BY id-aa-receiptRequest
  CONTENT-TYPE Receipt IDENTIFIED BY id-ct-receipt

rfc2876
  ALGORITHM Skipjack-Parm IDENTIFIED BY id-fortezzaConfidentialityAlgorithm
  ALGORITHM rfc5280.AlgorithmIdentifier IDENTIFIED BY id-kEAKeyEncryptionAlgorithm
  SMIME-CAPS rfc5280.AlgorithmIdentifier IDENTIFIED BY id-kEAKeyEncryptionAlgorithm

rfc2985
  ATTRIBUTE ContentInfo IDENTIFIED BY pkcs-9-at-pkcs7PDU
  ATTRIBUTE PFX IDENTIFIED BY pkcs-9-at-userPKCS12
  ATTRIBUTE EncryptedPrivateKeyInfo IDENTIFIED BY pkcs-9-at-encryptedPrivateKeyInfo
  ATTRIBUTE EmailAddress IDENTIFIED BY pkcs-9-at-emailAddress
  ATTRIBUTE CHOICE { ia5String IA5String (SIZE (1..255)), directoryString CHOICE { teletexString TeletexString (SIZE (1..255)), printableString PrintableString (SIZE (1..255)), universalString UniversalString (SIZE (1..255)), utf8String UTF8String (SIZE (1..255)), bmpString BMPString (SIZE (1..255)) } } IDENTIFIED BY pkcs-9-at-unstructuredName
  ATTRIBUTE CHOICE { teletexString TeletexString (SIZE (1..255)), printableString PrintableString (SIZE (1..255)), universalString UniversalString (SIZE (1..255)), utf8String UTF8String (SIZE (1..255)), bmpString BMPString (SIZE (1..255)) } IDENTIFIED BY pkcs-9-at-unstructuredAddress
  ATTRIBUTE GeneralizedTime IDENTIFIED BY pkcs-9-at-dateOfBirth
  ATTRIBUTE CHOICE { teletexString TeletexString (SIZE (1..255)), printableString PrintableString (SIZE (1..255)), universalString UniversalString (SIZE (1..255)), utf8String UTF8String (SIZE (1..255)), bmpString BMPString (SIZE (1..255)) } IDENTIFIED BY pkcs-9-at-placeOfBirth
  ATTRIBUTE PrintableString (SIZE (1)) ("M" | "F" | "m" | "f") IDENTIFIED BY pkcs-9-at-gender
  ATTRIBUTE X520countryName IDENTIFIED BY pkcs-9-at-countryOfCitizenship
  ATTRIBUTE X520countryName IDENTIFIED BY pkcs-9-at-countryOfResidence
  ATTRIBUTE CHOICE { teletexString TeletexString (SIZE (1..255)), printableString PrintableString (SIZE (1..255)), universalString UniversalString (SIZE (1..255)), utf8String UTF8String (SIZE (1..255)), bmpString BMPString (SIZE (1..255)) } IDENTIFIED BY id-at-pseudonym
  ATTRIBUTE X520SerialNumber IDENTIFIED BY id-at-serialNumber
  ATTRIBUTE CHOICE { teletexString TeletexString (SIZE (1..255)), printableString PrintableString (SIZE (1..255)), universalString UniversalString (SIZE (1..255)), utf8String UTF8String (SIZE (1..255)), bmpString BMPString (SIZE (1..255)) } IDENTIFIED BY pkcs-9-at-challengePassword
  ATTRIBUTE ExtensionRequest IDENTIFIED BY pkcs-9-at-extensionRequest
  ATTRIBUTE SET OF Attribute IDENTIFIED BY pkcs-9-at-extendedCertificateAttributes
  CMS-ATTRIBUTE ContentType IDENTIFIED BY pkcs-9-at-contentType
  CMS-ATTRIBUTE MessageDigest IDENTIFIED BY pkcs-9-at-messageDigest
  CMS-ATTRIBUTE SigningTime IDENTIFIED BY pkcs-9-at-signingTime
  CMS-ATTRIBUTE RandomNonce IDENTIFIED BY pkcs-9-at-randomNonce
  CMS-ATTRIBUTE SequenceNumber IDENTIFIED BY pkcs-9-at-sequenceNumber
  CMS-ATTRIBUTE Countersignature IDENTIFIED BY pkcs-9-at-counterSignature
  CMS-ATTRIBUTE BMPString (SIZE (1..255)) IDENTIFIED BY pkcs-9-at-friendlyName
  CMS-ATTRIBUTE OCTET STRING IDENTIFIED BY pkcs-9-at-localKeyId
  CMS-ATTRIBUTE CHOICE { teletexString TeletexString (SIZE (1..255)), printableString PrintableString (SIZE (1..255)), universalString UniversalString (SIZE (1..255)), utf8String UTF8String (SIZE (1..255)), bmpString BMPString (SIZE (1..255)) } IDENTIFIED BY pkcs-9-at-signingDescription
  CMS-ATTRIBUTE rfc5751.SMIMECapabilities IDENTIFIED BY pkcs-9-at-smimeCapabilities

rfc3058
  ALGORITHM IDEA-CBCPar IDENTIFIED BY id-IDEA-CBC
  ALGORITHM NULL IDENTIFIED BY id-alg-CMSIDEAwrap

rfc3114
  SECURITY-CATEGORY SecurityCategoryValues IDENTIFIED BY id-tsp-TEST-Whirlpool-Categories

rfc3161
  CONTENT-TYPE TSTInfo IDENTIFIED BY id-ct-TSTInfo

rfc3274
  CONTENT-TYPE CompressedData IDENTIFIED BY id-ct-compressedData

rfc3279
  ALGORITHM NULL IDENTIFIED BY md2
  ALGORITHM NULL IDENTIFIED BY md5
  ALGORITHM NULL IDENTIFIED BY id-sha1
  ALGORITHM Dss-Parms IDENTIFIED BY id-dsa
  ALGORITHM NULL IDENTIFIED BY rsaEncryption
  ALGORITHM NULL IDENTIFIED BY md2WithRSAEncryption
  ALGORITHM NULL IDENTIFIED BY md5WithRSAEncryption
  ALGORITHM NULL IDENTIFIED BY sha1WithRSAEncryption
  ALGORITHM DomainParameters IDENTIFIED BY dhpublicnumber
  ALGORITHM KEA-Parms-Id IDENTIFIED BY id-keyExchangeAlgorithm
  ALGORITHM EcpkParameters IDENTIFIED BY id-ecPublicKey

rfc3370
  ALGORITHM NULL IDENTIFIED BY hMAC-SHA1
  ALGORITHM RC2wrapParameter IDENTIFIED BY id-alg-CMSRC2wrap
  ALGORITHM KeyWrapAlgorithm IDENTIFIED BY id-alg-ESDH
  ALGORITHM KeyWrapAlgorithm IDENTIFIED BY id-alg-SSDH
  SMIME-CAPS RC2wrapParameter IDENTIFIED BY id-alg-CMSRC2wrap
  SMIME-CAPS KeyWrapAlgorithm IDENTIFIED BY id-alg-ESDH
  SMIME-CAPS KeyWrapAlgorithm IDENTIFIED BY id-alg-SSDH
  ALGORITHM NULL IDENTIFIED BY id-alg-CMS3DESwrap
  ALGORITHM CBCParameter IDENTIFIED BY des-ede3-cbc
  ALGORITHM RC2CBCParameter IDENTIFIED BY rc2-cbc
  ALGORITHM PBKDF2-params IDENTIFIED BY id-PBKDF2

rfc3537
  ALGORITHM NULL IDENTIFIED BY id-alg-HMACwith3DESwrap
  ALGORITHM NULL IDENTIFIED BY id-alg-HMACwithAESwrap

rfc3565
  ALGORITHM AES-IV IDENTIFIED BY id-aes128-CBC
  ALGORITHM AES-IV IDENTIFIED BY id-aes192-CBC
  ALGORITHM AES-IV IDENTIFIED BY id-aes256-CBC

rfc3657
  ALGORITHM Camellia-IV IDENTIFIED BY id-camellia128-cbc
  ALGORITHM Camellia-IV IDENTIFIED BY id-camellia192-cbc
  ALGORITHM Camellia-IV IDENTIFIED BY id-camellia256-cbc
  SMIME-CAPS CamelliaSMimeCapability IDENTIFIED BY id-camellia128-cbc
  SMIME-CAPS CamelliaSMimeCapability IDENTIFIED BY id-camellia192-cbc
  SMIME-CAPS CamelliaSMimeCapability IDENTIFIED BY id-camellia256-cbc
  SMIME-CAPS CamelliaSMimeCapability IDENTIFIED BY id-camellia128-wrap
  SMIME-CAPS CamelliaSMimeCapability IDENTIFIED BY id-camellia192-wrap
  SMIME-CAPS CamelliaSMimeCapability IDENTIFIED BY id-camellia256-wrap

rfc3709
  EXTENSION LogotypeExtn IDENTIFIED BY id-pe-logotype

rfc3739
  EXTENSION BiometricSyntax IDENTIFIED BY id-pe-biometricInfo
  EXTENSION QCStatements IDENTIFIED BY id-pe-qcStatements
  ATTRIBUTE DateOfBirth IDENTIFIED BY id-pda-dateOfBirth
  ATTRIBUTE PlaceOfBirth IDENTIFIED BY id-pda-placeOfBirth
  ATTRIBUTE Gender IDENTIFIED BY id-pda-gender
  ATTRIBUTE CountryOfCitizenship IDENTIFIED BY id-pda-countryOfCitizenship
  ATTRIBUTE CountryOfResidence IDENTIFIED BY id-pda-countryOfResidence
  QC-STATEMENT SemanticsInformation IDENTIFIED BY id-qcs-pkixQCSyntax-v1
  QC-STATEMENT SemanticsInformation IDENTIFIED BY id-qcs-pkixQCSyntax-v2

rfc3770
  EXTENSION SSIDList IDENTIFIED BY id-pe-wlanSSID

rfc3779
  EXTENSION IPAddrBlocks IDENTIFIED BY id-pe-ipAddrBlocks
  EXTENSION ASIdentifiers IDENTIFIED BY id-pe-autonomousSysIds

rfc3820
  EXTENSION ProxyCertInfoExtension IDENTIFIED BY id-pe-proxyCertInfo

rfc4010
  ALGORITHM SeedCBCParameter IDENTIFIED BY id-seedCBC
  SMIME-CAPS SeedSMimeCapability IDENTIFIED BY id-seedCBC
  SMIME-CAPS SeedSMimeCapability IDENTIFIED BY id-npki-app-cmsSeed-wrap

rfc4043
  OTHER-NAME PermanentIdentifier IDENTIFIED BY id-on-permanentIdentifier

rfc4055
  ALGORITHM NULL IDENTIFIED BY id-sha1
  ALGORITHM NULL IDENTIFIED BY id-sha224
  ALGORITHM NULL IDENTIFIED BY id-sha256
  ALGORITHM NULL IDENTIFIED BY id-sha384
  ALGORITHM NULL IDENTIFIED BY id-sha512
  ALGORITHM AlgorithmIdentifier IDENTIFIED BY id-mgf1
  ALGORITHM OCTET STRING IDENTIFIED BY id-pSpecified
  ALGORITHM RSAES-OAEP-params IDENTIFIED BY id-RSAES-OAEP
  ALGORITHM RSASSA-PSS-params IDENTIFIED BY id-RSASSA-PSS
  ALGORITHM NULL IDENTIFIED BY rsaEncryption
  ALGORITHM NULL IDENTIFIED BY sha224WithRSAEncryption
  ALGORITHM NULL IDENTIFIED BY sha256WithRSAEncryption
  ALGORITHM NULL IDENTIFIED BY sha384WithRSAEncryption
  ALGORITHM NULL IDENTIFIED BY sha512WithRSAEncryption

rfc4073
  CONTENT-TYPE ContentCollection IDENTIFIED BY id-ct-contentCollection
  CONTENT-TYPE ContentWithAttributes IDENTIFIED BY id-ct-contentWithAttrs

rfc4108
  CMS-ATTRIBUTE WrappedFirmwareKey IDENTIFIED BY id-aa-wrappedFirmwareKey
  CMS-ATTRIBUTE package.FirmwarePackageInfo IDENTIFIED BY id-aa-firmwarePackageInfo
  CMS-ATTRIBUTE CommunityIdentifiers IDENTIFIED BY id-aa-communityIdentifiers
  CMS-ATTRIBUTE ImplementedCompressAlgorithms IDENTIFIED BY id-aa-implCompressAlgs
  CMS-ATTRIBUTE ImplementedCryptoAlgorithms IDENTIFIED BY id-aa-implCryptoAlgs
  CMS-ATTRIBUTE DecryptKeyIdentifier IDENTIFIED BY id-aa-decryptKeyID
  CMS-ATTRIBUTE TargetHardwareIdentifiers IDENTIFIED BY id-aa-targetHardwareIDs
  CMS-ATTRIBUTE FirmwarePackageIdentifier IDENTIFIED BY id-aa-firmwarePackageID
  CMS-ATTRIBUTE FirmwarePackageMessageDigest IDENTIFIED BY id-aa-fwPkgMessageDigest
  CONTENT-TYPE FirmwarePackageLoadError IDENTIFIED BY id-ct-firmwareLoadError
  CONTENT-TYPE FirmwarePackageLoadReceipt IDENTIFIED BY id-ct-firmwareLoadReceipt
  CONTENT-TYPE FirmwarePkgData IDENTIFIED BY id-ct-firmwarePackage
  OTHER-NAME HardwareModuleName IDENTIFIED BY id-on-hardwareModuleName

rfc4334
  EXTENSION SSIDList IDENTIFIED BY id-pe-wlanSSID
  ATTRIBUTE SSIDList IDENTIFIED BY id-aca-wlanSSID

rfc4357
  ALGORITHM Gost28147-89-Parameters IDENTIFIED BY id-Gost28147-89
  ALGORITHM package.Gost28147_89_ParamSetParameters IDENTIFIED BY id-Gost28147-89-TestParamSet
  ALGORITHM package.Gost28147_89_ParamSetParameters IDENTIFIED BY id-Gost28147-89-CryptoPro-A-ParamSet
  ALGORITHM package.Gost28147_89_ParamSetParameters IDENTIFIED BY id-Gost28147-89-CryptoPro-B-ParamSet
  ALGORITHM package.Gost28147_89_ParamSetParameters IDENTIFIED BY id-Gost28147-89-CryptoPro-C-ParamSet
  ALGORITHM package.Gost28147_89_ParamSetParameters IDENTIFIED BY id-Gost28147-89-CryptoPro-D-ParamSet
  ALGORITHM NULL IDENTIFIED BY id-Gost28147-89-CryptoPro-KeyMeshing
  ALGORITHM NULL IDENTIFIED BY id-Gost28147-89-None-KeyMeshing
  ALGORITHM package.GostR3410_94_PublicKeyParameters IDENTIFIED BY id-GostR3410-94
  ALGORITHM package.GostR3410_94_ParamSetParameters IDENTIFIED BY id-GostR3410-94-TestParamSet
  ALGORITHM package.GostR3410_94_ParamSetParameters IDENTIFIED BY id-GostR3410-94-CryptoPro-A-ParamSet
  ALGORITHM package.GostR3410_94_ParamSetParameters IDENTIFIED BY id-GostR3410-94-CryptoPro-B-ParamSet
  ALGORITHM package.GostR3410_94_ParamSetParameters IDENTIFIED BY id-GostR3410-94-CryptoPro-C-ParamSet
  ALGORITHM package.GostR3410_94_ParamSetParameters IDENTIFIED BY id-GostR3410-94-CryptoPro-D-ParamSet
  ALGORITHM package.GostR3410_94_ParamSetParameters IDENTIFIED BY id-GostR3410-94-CryptoPro-XchA-ParamSet
  ALGORITHM package.GostR3410_94_ParamSetParameters IDENTIFIED BY id-GostR3410-94-CryptoPro-XchB-ParamSet
  ALGORITHM package.GostR3410_94_ParamSetParameters IDENTIFIED BY id-GostR3410-94-CryptoPro-XchC-ParamSet
  ALGORITHM package.GostR3410_94_ValidationParameters IDENTIFIED BY id-GostR3410-94-a
  ALGORITHM package.GostR3410_94_ValidationBisParameters IDENTIFIED BY id-GostR3410-94-aBis
  ALGORITHM package.GostR3410_94_ValidationParameters IDENTIFIED BY id-GostR3410-94-b
  ALGORITHM package.GostR3410_94_ValidationBisParameters IDENTIFIED BY id-GostR3410-94-bBis
  ALGORITHM package.GostR3410_2001_PublicKeyParameters IDENTIFIED BY id-GostR3410-2001
  ALGORITHM GostR3411-94-ParamSetParameters IDENTIFIED BY id-GostR3411-94-TestParamSet
  ALGORITHM GostR3411-94-ParamSetParameters IDENTIFIED BY id-GostR3411-94-CryptoProParamSet

rfc4476
  CERT-POLICY-QUALIFIER ACPSuri IDENTIFIED BY id-qt-acps
  CERT-POLICY-QUALIFIER ACUserNotice IDENTIFIED BY id-qt-acunotice
  EXTENSION AcPoliciesSyntax IDENTIFIED BY id-pe-acPolicies

rfc4490
  ALGORITHM Gost28147-89-KeyWrapParameters IDENTIFIED BY id-Gost28147-89-CryptoPro-KeyWrap
  ALGORITHM Gost28147-89-KeyWrapParameters IDENTIFIED BY id-Gost28147-89-None-KeyWrap

rfc4683
  OTHER-NAME SIM IDENTIFIED BY id-on-SIM

rfc4985
  OTHER-NAME SRVName IDENTIFIED BY id-on-dnsSRV

rfc5035
  CMS-ATTRIBUTE SigningCertificateV2 IDENTIFIED BY id-aa-signingCertificateV2
  CONTENT-TYPE Receipt IDENTIFIED BY id-ct-receipt

rfc5083
  CONTENT-TYPE AuthEnvelopedData IDENTIFIED BY id-ct-authEnvelopedData

rfc5084
  ALGORITHM CCMParameters IDENTIFIED BY id-aes128-CCM
  ALGORITHM GCMParameters IDENTIFIED BY id-aes128-GCM
  ALGORITHM CCMParameters IDENTIFIED BY id-aes192-CCM
  ALGORITHM GCMParameters IDENTIFIED BY id-aes192-GCM
  ALGORITHM CCMParameters IDENTIFIED BY id-aes256-CCM
  ALGORITHM GCMParameters IDENTIFIED BY id-aes256-GCM

rfc5126
  SIG-POLICY-QUALIFIER SPUserNotice IDENTIFIED BY id-spq-ets-unotice
  SIG-POLICY-QUALIFIER SPuri IDENTIFIED BY id-spq-ets-uri
  CMS-ATTRIBUTE OtherSigningCertificate IDENTIFIED BY id-aa-ets-otherSigCert
  CMS-ATTRIBUTE SignaturePolicy IDENTIFIED BY id-aa-ets-sigPolicyId
  CMS-ATTRIBUTE CommitmentTypeIndication IDENTIFIED BY id-aa-ets-commitmentType
  CMS-ATTRIBUTE SignerLocation IDENTIFIED BY id-aa-ets-signerLocation
  CMS-ATTRIBUTE SignatureTimeStampToken IDENTIFIED BY id-aa-signatureTimeStampToken
  CMS-ATTRIBUTE ContentTimestamp IDENTIFIED BY id-aa-ets-contentTimestamp
  CMS-ATTRIBUTE SignerAttribute IDENTIFIED BY id-aa-ets-signerAttr
  CMS-ATTRIBUTE CompleteCertificateRefs IDENTIFIED BY id-aa-ets-certificateRefs
  CMS-ATTRIBUTE CompleteRevocationRefs IDENTIFIED BY id-aa-ets-revocationRefs
  CMS-ATTRIBUTE CertificateValues IDENTIFIED BY id-aa-ets-certValues
  CMS-ATTRIBUTE RevocationValues IDENTIFIED BY id-aa-ets-revocationValues
  CMS-ATTRIBUTE ESCTimeStampToken IDENTIFIED BY id-aa-ets-escTimeStamp
  CMS-ATTRIBUTE TimestampedCertsCRLs IDENTIFIED BY id-aa-ets-certCRLTimestamp
  CMS-ATTRIBUTE ArchiveTimeStampToken IDENTIFIED BY id-aa-ets-archiveTimestampV2
  CMS-ATTRIBUTE AttributeCertificateRefs IDENTIFIED BY id-aa-ets-attrCertificateRefs
  CMS-ATTRIBUTE AttributeRevocationRefs IDENTIFIED BY id-aa-ets-attrRevocationRefs

rfc5275
  GLA-QUERY NULL IDENTIFIED BY id-cmc-gla-skdAlgRequest
  GLA-QUERY SMIMECapabilities IDENTIFIED BY id-cmc-gla-skdAlgResponse
  CMS-ATTRIBUTE GLUseKEK IDENTIFIED BY id-skd-glUseKEK
  CMS-ATTRIBUTE DeleteGL IDENTIFIED BY id-skd-glDelete
  CMS-ATTRIBUTE GLAddMember IDENTIFIED BY id-skd-glAddMember
  CMS-ATTRIBUTE GLDeleteMember IDENTIFIED BY id-skd-glDeleteMember
  CMS-ATTRIBUTE GLRekey IDENTIFIED BY id-skd-glRekey
  CMS-ATTRIBUTE GLOwnerAdministration IDENTIFIED BY id-skd-glAddOwner
  CMS-ATTRIBUTE GLOwnerAdministration IDENTIFIED BY id-skd-glRemoveOwner
  CMS-ATTRIBUTE GLKCompromise IDENTIFIED BY id-skd-glKeyCompromise
  CMS-ATTRIBUTE GLKRefresh IDENTIFIED BY id-skd-glkRefresh
  CMS-ATTRIBUTE GLAQueryRequest IDENTIFIED BY id-skd-glaQueryRequest
  CMS-ATTRIBUTE GLAQueryResponse IDENTIFIED BY id-skd-glaQueryResponse
  CMS-ATTRIBUTE GLManageCert IDENTIFIED BY id-skd-glProvideCert
  CMS-ATTRIBUTE GLManageCert IDENTIFIED BY id-skd-glManageCert
  CMS-ATTRIBUTE GLKey IDENTIFIED BY id-skd-glKey

rfc5280
  EXTENSION-ATTRIBUTE CommonName IDENTIFIED BY common-name
  EXTENSION-ATTRIBUTE TeletexCommonName IDENTIFIED BY teletex-common-name
  EXTENSION-ATTRIBUTE TeletexOrganizationName IDENTIFIED BY teletex-organization-name
  EXTENSION-ATTRIBUTE TeletexPersonalName IDENTIFIED BY teletex-personal-name
  EXTENSION-ATTRIBUTE TeletexOrganizationalUnitNames IDENTIFIED BY teletex-organizational-unit-names
  EXTENSION-ATTRIBUTE PDSName IDENTIFIED BY pds-name
  EXTENSION-ATTRIBUTE PhysicalDeliveryCountryName IDENTIFIED BY physical-delivery-country-name
  EXTENSION-ATTRIBUTE PostalCode IDENTIFIED BY postal-code
  EXTENSION-ATTRIBUTE PhysicalDeliveryOfficeName IDENTIFIED BY physical-delivery-office-name
  EXTENSION-ATTRIBUTE PhysicalDeliveryOfficeNumber IDENTIFIED BY physical-delivery-office-number
  EXTENSION-ATTRIBUTE ExtensionORAddressComponents IDENTIFIED BY extension-OR-address-components
  EXTENSION-ATTRIBUTE PhysicalDeliveryPersonalName IDENTIFIED BY physical-delivery-personal-name
  EXTENSION-ATTRIBUTE PhysicalDeliveryOrganizationName IDENTIFIED BY physical-delivery-organization-name
  EXTENSION-ATTRIBUTE ExtensionPhysicalDeliveryAddressComponents IDENTIFIED BY extension-physical-delivery-address-components
  EXTENSION-ATTRIBUTE UnformattedPostalAddress IDENTIFIED BY unformatted-postal-address
  EXTENSION-ATTRIBUTE StreetAddress IDENTIFIED BY street-address
  EXTENSION-ATTRIBUTE PostOfficeBoxAddress IDENTIFIED BY post-office-box-address
  EXTENSION-ATTRIBUTE PosteRestanteAddress IDENTIFIED BY poste-restante-address
  EXTENSION-ATTRIBUTE UniquePostalName IDENTIFIED BY unique-postal-name
  EXTENSION-ATTRIBUTE LocalPostalAttributes IDENTIFIED BY local-postal-attributes
  EXTENSION-ATTRIBUTE ExtendedNetworkAddress IDENTIFIED BY extended-network-address
  EXTENSION-ATTRIBUTE TerminalType IDENTIFIED BY terminal-type
  EXTENSION-ATTRIBUTE TeletexDomainDefinedAttributes IDENTIFIED BY teletex-domain-defined-attributes
  ATTRIBUTE X520name IDENTIFIED BY id-at-name
  ATTRIBUTE X520name IDENTIFIED BY id-at-surname
  ATTRIBUTE X520name IDENTIFIED BY id-at-givenName
  ATTRIBUTE X520name IDENTIFIED BY id-at-initials
  ATTRIBUTE X520name IDENTIFIED BY id-at-generationQualifier
  ATTRIBUTE X520CommonName IDENTIFIED BY id-at-commonName
  ATTRIBUTE X520LocalityName IDENTIFIED BY id-at-localityName
  ATTRIBUTE X520StateOrProvinceName IDENTIFIED BY id-at-stateOrProvinceName
  ATTRIBUTE X520OrganizationName IDENTIFIED BY id-at-organizationName
  ATTRIBUTE X520OrganizationalUnitName IDENTIFIED BY id-at-organizationalUnitName
  ATTRIBUTE X520Title IDENTIFIED BY id-at-title
  ATTRIBUTE X520dnQualifier IDENTIFIED BY id-at-dnQualifier
  ATTRIBUTE X520countryName IDENTIFIED BY id-at-countryName
  ATTRIBUTE X520SerialNumber IDENTIFIED BY id-at-serialNumber
  ATTRIBUTE X520Pseudonym IDENTIFIED BY id-at-pseudonym
  ATTRIBUTE DomainComponent IDENTIFIED BY id-domainComponent
  ATTRIBUTE EmailAddress IDENTIFIED BY id-emailAddress
  EXTENSION AuthorityKeyIdentifier IDENTIFIED BY id-ce-authorityKeyIdentifier
  EXTENSION SubjectKeyIdentifier IDENTIFIED BY id-ce-subjectKeyIdentifier
  EXTENSION KeyUsage IDENTIFIED BY id-ce-keyUsage
  EXTENSION PrivateKeyUsagePeriod IDENTIFIED BY id-ce-privateKeyUsagePeriod
  EXTENSION CertificatePolicies IDENTIFIED BY id-ce-certificatePolicies
  EXTENSION PolicyMappings IDENTIFIED BY id-ce-policyMappings
  EXTENSION SubjectAltName IDENTIFIED BY id-ce-subjectAltName
  EXTENSION IssuerAltName IDENTIFIED BY id-ce-issuerAltName
  EXTENSION SubjectDirectoryAttributes IDENTIFIED BY id-ce-subjectDirectoryAttributes
  EXTENSION BasicConstraints IDENTIFIED BY id-ce-basicConstraints
  EXTENSION NameConstraints IDENTIFIED BY id-ce-nameConstraints
  EXTENSION PolicyConstraints IDENTIFIED BY id-ce-policyConstraints
  EXTENSION ExtKeyUsageSyntax IDENTIFIED BY id-ce-extKeyUsage
  EXTENSION CRLDistributionPoints IDENTIFIED BY id-ce-cRLDistributionPoints
  EXTENSION AuthorityInfoAccessSyntax IDENTIFIED BY id-pe-authorityInfoAccess
  EXTENSION CRLNumber IDENTIFIED BY id-ce-cRLNumber
  EXTENSION BaseCRLNumber IDENTIFIED BY id-ce-deltaCRLIndicator
  EXTENSION IssuingDistributionPoint IDENTIFIED BY id-ce-issuingDistributionPoint
  EXTENSION CRLReason IDENTIFIED BY id-ce-cRLReasons
  EXTENSION HoldInstructionCode IDENTIFIED BY id-ce-holdInstructionCode
  EXTENSION InvalidityDate IDENTIFIED BY id-ce-invalidityDate
  EXTENSION CertificateIssuer IDENTIFIED BY id-ce-certificateIssuer
  EXTENSION InhibitAnyPolicy IDENTIFIED BY id-ce-inhibitAnyPolicy
  EXTENSION FreshestCRL IDENTIFIED BY id-ce-freshestCRL
  EXTENSION SubjectInfoAccessSyntax IDENTIFIED BY id-pe-subjectInfoAccess
  CERT-POLICY-QUALIFIER CPSuri IDENTIFIED BY id-qt-cps
  CERT-POLICY-QUALIFIER UserNotice IDENTIFIED BY id-qt-unotice

rfc5480
  ALGORITHM NULL IDENTIFIED BY rsaEncryption
  ALGORITHM NULL IDENTIFIED BY md2WithRSAEncryption
  ALGORITHM NULL IDENTIFIED BY md5WithRSAEncryption
  ALGORITHM NULL IDENTIFIED BY sha1WithRSAEncryption
  ALGORITHM rfc3279.Dss-Parms IDENTIFIED BY id-dsa
  ALGORITHM DomainParameters IDENTIFIED BY dhpublicnumber
  ALGORITHM KEA-Parms-Id IDENTIFIED BY id-keyExchangeAlgorithm
  ALGORITHM ECParameters IDENTIFIED BY id-ecPublicKey
  ALGORITHM ECParameters IDENTIFIED BY id-ecDH
  ALGORITHM ECParameters IDENTIFIED BY id-ecMQV

rfc5652
  CONTENT-TYPE ContentInfo IDENTIFIED BY id-ct-contentInfo
  CONTENT-TYPE OCTET STRING IDENTIFIED BY id-data
  CONTENT-TYPE SignedData IDENTIFIED BY id-signedData
  CONTENT-TYPE EnvelopedData IDENTIFIED BY id-envelopedData
  CONTENT-TYPE DigestedData IDENTIFIED BY id-digestedData
  CONTENT-TYPE EncryptedData IDENTIFIED BY id-encryptedData
  CONTENT-TYPE AuthenticatedData IDENTIFIED BY id-ct-authData
  CMS-ATTRIBUTE ContentType IDENTIFIED BY id-contentType
  CMS-ATTRIBUTE MessageDigest IDENTIFIED BY id-messageDigest
  CMS-ATTRIBUTE SigningTime IDENTIFIED BY id-signingTime
  CMS-ATTRIBUTE Countersignature IDENTIFIED BY id-countersignature

rfc5697
  EXTENSION OtherCertificates IDENTIFIED BY id-pe-otherCerts

rfc5751
  CMS-ATTRIBUTE SMIMECapabilities IDENTIFIED BY smimeCapabilities
  CMS-ATTRIBUTE SMIMEEncryptionKeyPreference IDENTIFIED BY id-aa-encrypKeyPref
  SMIME-CAPS SMIMECapabilitiesParametersForRC2CBC IDENTIFIED BY rc2CBC

rfc5752
  CMS-ATTRIBUTE MultipleSignatures IDENTIFIED BY id-aa-multipleSignatures

rfc5753
  ALGORITHM KeyWrapAlgorithm IDENTIFIED BY dhSinglePass-stdDH-sha1kdf-scheme
  ALGORITHM KeyWrapAlgorithm IDENTIFIED BY dhSinglePass-stdDH-sha224kdf-scheme
  ALGORITHM KeyWrapAlgorithm IDENTIFIED BY dhSinglePass-stdDH-sha256kdf-scheme
  ALGORITHM KeyWrapAlgorithm IDENTIFIED BY dhSinglePass-stdDH-sha384kdf-scheme
  ALGORITHM KeyWrapAlgorithm IDENTIFIED BY dhSinglePass-stdDH-sha512kdf-scheme
  ALGORITHM KeyWrapAlgorithm IDENTIFIED BY dhSinglePass-cofactorDH-sha1kdf-scheme
  ALGORITHM KeyWrapAlgorithm IDENTIFIED BY dhSinglePass-cofactorDH-sha224kdf-scheme
  ALGORITHM KeyWrapAlgorithm IDENTIFIED BY dhSinglePass-cofactorDH-sha256kdf-scheme
  ALGORITHM KeyWrapAlgorithm IDENTIFIED BY dhSinglePass-cofactorDH-sha384kdf-scheme
  ALGORITHM KeyWrapAlgorithm IDENTIFIED BY dhSinglePass-cofactorDH-sha512kdf-scheme
  ALGORITHM KeyWrapAlgorithm IDENTIFIED BY mqvSinglePass-sha1kdf-scheme
  ALGORITHM KeyWrapAlgorithm IDENTIFIED BY mqvSinglePass-sha224kdf-scheme
  ALGORITHM KeyWrapAlgorithm IDENTIFIED BY mqvSinglePass-sha256kdf-scheme
  ALGORITHM KeyWrapAlgorithm IDENTIFIED BY mqvSinglePass-sha384kdf-scheme
  ALGORITHM KeyWrapAlgorithm IDENTIFIED BY mqvSinglePass-sha512kdf-scheme
  SMIME-CAPS KeyWrapAlgorithm IDENTIFIED BY dhSinglePass-stdDH-sha1kdf-scheme
  SMIME-CAPS KeyWrapAlgorithm IDENTIFIED BY dhSinglePass-stdDH-sha224kdf-scheme
  SMIME-CAPS KeyWrapAlgorithm IDENTIFIED BY dhSinglePass-stdDH-sha256kdf-scheme
  SMIME-CAPS KeyWrapAlgorithm IDENTIFIED BY dhSinglePass-stdDH-sha384kdf-scheme
  SMIME-CAPS KeyWrapAlgorithm IDENTIFIED BY dhSinglePass-stdDH-sha512kdf-scheme
  SMIME-CAPS KeyWrapAlgorithm IDENTIFIED BY dhSinglePass-cofactorDH-sha1kdf-scheme
  SMIME-CAPS KeyWrapAlgorithm IDENTIFIED BY dhSinglePass-cofactorDH-sha224kdf-scheme
  SMIME-CAPS KeyWrapAlgorithm IDENTIFIED BY dhSinglePass-cofactorDH-sha256kdf-scheme
  SMIME-CAPS KeyWrapAlgorithm IDENTIFIED BY dhSinglePass-cofactorDH-sha384kdf-scheme
  SMIME-CAPS KeyWrapAlgorithm IDENTIFIED BY dhSinglePass-cofactorDH-sha512kdf-scheme
  SMIME-CAPS KeyWrapAlgorithm IDENTIFIED BY mqvSinglePass-sha1kdf-scheme
  SMIME-CAPS KeyWrapAlgorithm IDENTIFIED BY mqvSinglePass-sha224kdf-scheme
  SMIME-CAPS KeyWrapAlgorithm IDENTIFIED BY mqvSinglePass-sha256kdf-scheme
  SMIME-CAPS KeyWrapAlgorithm IDENTIFIED BY mqvSinglePass-sha384kdf-scheme
  SMIME-CAPS KeyWrapAlgorithm IDENTIFIED BY mqvSinglePass-sha512kdf-scheme

rfc5755
  EXTENSION OCTET STRING IDENTIFIED BY id-pe-ac-auditIdentity
  EXTENSION NULL IDENTIFIED BY id-ce-noRevAvail
  EXTENSION SEQUENCE OF Targets IDENTIFIED BY id-ce-targetInformation
  EXTENSION ProxyInfo IDENTIFIED BY id-pe-ac-proxying
  EXTENSION AAControls IDENTIFIED BY id-pe-aaControls
  ATTRIBUTE SvceAuthInfo IDENTIFIED BY id-aca-authenticationInfo
  ATTRIBUTE SvceAuthInfo IDENTIFIED BY id-aca-accessIdentity
  ATTRIBUTE IetfAttrSyntax IDENTIFIED BY id-aca-chargingIdentity
  ATTRIBUTE IetfAttrSyntax IDENTIFIED BY id-aca-group
  ATTRIBUTE RoleSyntax IDENTIFIED BY id-at-role
  ATTRIBUTE Clearance IDENTIFIED BY id-at-clearance
  ATTRIBUTE rfc5652.ContentInfo IDENTIFIED BY id-aca-encAttrs
  ATTRIBUTE rfc3281.Clearance IDENTIFIED BY rfc3281.id-at-clearance

rfc5913
  EXTENSION AuthorityClearanceConstraints IDENTIFIED BY id-pe-clearanceConstraints

rfc5914
  CONTENT-TYPE TrustAnchorList IDENTIFIED BY id-ct-trustAnchorList

rfc5916
  ATTRIBUTE OBJECT IDENTIFIER IDENTIFIED BY id-deviceOwner

rfc5917
-- DirectoryString {ub-clearance-sponsor} (WITH COMPONENTS {utf8String PRESENT})
  ATTRIBUTE CHOICE { utf8String UTF8String (SIZE (1..64)) } IDENTIFIED BY id-clearanceSponsor

rfc5934
  CONTENT-TYPE TAMPStatusQuery IDENTIFIED BY id-ct-TAMP-statusQuery
  CONTENT-TYPE TAMPStatusResponse IDENTIFIED BY id-ct-TAMP-statusResponse
  CONTENT-TYPE TAMPUpdate IDENTIFIED BY id-ct-TAMP-update
  CONTENT-TYPE TAMPUpdateConfirm IDENTIFIED BY id-ct-TAMP-updateConfirm
  CONTENT-TYPE TAMPApexUpdate IDENTIFIED BY id-ct-TAMP-apexUpdate
  CONTENT-TYPE TAMPApexUpdateConfirm IDENTIFIED BY id-ct-TAMP-apexUpdateConfirm
  CONTENT-TYPE TAMPCommunityUpdate IDENTIFIED BY id-ct-TAMP-communityUpdate
  CONTENT-TYPE TAMPCommunityUpdateConfirm IDENTIFIED BY id-ct-TAMP-communityUpdateConfirm
  CONTENT-TYPE SequenceNumberAdjust IDENTIFIED BY id-ct-TAMP-seqNumAdjust
  CONTENT-TYPE SequenceNumberAdjustConfirm IDENTIFIED BY id-ct-TAMP-seqNumAdjustConfirm
  CONTENT-TYPE TAMPError IDENTIFIED BY id-ct-TAMP-error
  CMS-ATTRIBUTE PlaintextSymmetricKey IDENTIFIED BY id-aa-TAMP-contingencyPublicKeyDecryptKey
  EXTENSION ApexContingencyKey IDENTIFIED BY id-pe-wrappedApexContinKey

rfc5940
  OTHER-REVOK-INFO OCSPResponse IDENTIFIED BY id-ri-ocsp-response
  OTHER-REVOK-INFO SCVPReqRes IDENTIFIED BY id-ri-scvp

rfc5958
  CONTENT-TYPE AsymmetricKeyPackage IDENTIFIED BY id-ct-KP-aKeyPackage

rfc5990
  ALGORITHM GenericHybridParameters IDENTIFIED BY id-rsa-kem
  ALGORITHM RsaKemParameters IDENTIFIED BY id-kem-rsa
  ALGORITHM KDF2-HashFunction IDENTIFIED BY id-kdf-kdf2
  ALGORITHM KDF3-HashFunction IDENTIFIED BY id-kdf-kdf3
  ALGORITHM NULL IDENTIFIED BY id-sha1
  ALGORITHM NULL IDENTIFIED BY id-sha224
  ALGORITHM NULL IDENTIFIED BY id-sha256
  ALGORITHM NULL IDENTIFIED BY id-sha384
  ALGORITHM NULL IDENTIFIED BY id-sha512
  ALGORITHM NULL IDENTIFIED BY id-alg-CMS3DESwrap

rfc6010
  EXTENSION CMSContentConstraints IDENTIFIED BY id-pe-cmsContentConstraints

rfc6019
  CMS-ATTRIBUTE BinarySigningTime IDENTIFIED BY id-aa-binarySigningTime

rfc6031
  SKEY-PKG-ATTRIBUTE UTF8String IDENTIFIED BY id-pskc-manufacturer
  SKEY-PKG-ATTRIBUTE UTF8String IDENTIFIED BY id-pskc-serialNo
  SKEY-PKG-ATTRIBUTE UTF8String IDENTIFIED BY id-pskc-model
  SKEY-PKG-ATTRIBUTE UTF8String IDENTIFIED BY id-pskc-issueNo
  SKEY-PKG-ATTRIBUTE UTF8String IDENTIFIED BY id-pskc-deviceBinding
  SKEY-PKG-ATTRIBUTE GeneralizedTime IDENTIFIED BY id-pskc-deviceStartDate
  SKEY-PKG-ATTRIBUTE GeneralizedTime IDENTIFIED BY id-pskc-deviceExpiryDate
  SKEY-PKG-ATTRIBUTE UTF8String IDENTIFIED BY id-pskc-moduleId
  SKEY-PKG-ATTRIBUTE UTF8String IDENTIFIED BY id-pskc-deviceUserId
  SKEY-ATTRIBUTE UTF8String IDENTIFIED BY id-pskc-keyId
  SKEY-ATTRIBUTE UTF8String IDENTIFIED BY id-pskc-algorithm
  SKEY-ATTRIBUTE UTF8String IDENTIFIED BY id-pskc-issuer
  SKEY-ATTRIBUTE UTF8String IDENTIFIED BY id-pskc-keyProfileId
  SKEY-ATTRIBUTE UTF8String IDENTIFIED BY id-pskc-keyReference
  SKEY-ATTRIBUTE FriendlyName IDENTIFIED BY id-pskc-friendlyName
  SKEY-ATTRIBUTE PSKCAlgorithmParameters IDENTIFIED BY id-pskc-algorithmParameters
  SKEY-ATTRIBUTE INTEGER (0..MAX) IDENTIFIED BY id-pskc-counter
  SKEY-ATTRIBUTE rfc6019.BinaryTime IDENTIFIED BY id-pskc-time
  SKEY-ATTRIBUTE INTEGER (0..MAX) IDENTIFIED BY id-pskc-timeInterval
  SKEY-ATTRIBUTE INTEGER (0..MAX) IDENTIFIED BY id-pskc-timeDrift
  SKEY-ATTRIBUTE ValueMac IDENTIFIED BY id-pskc-valueMAC
  SKEY-ATTRIBUTE UTF8String IDENTIFIED BY id-pskc-keyUserId
  SKEY-ATTRIBUTE GeneralizedTime IDENTIFIED BY id-pskc-keyStartDate
  SKEY-ATTRIBUTE GeneralizedTime IDENTIFIED BY id-pskc-keyExpiryDate
  SKEY-ATTRIBUTE INTEGER (0..MAX) IDENTIFIED BY id-pskc-numberOfTransactions
  SKEY-ATTRIBUTE PSKCKeyUsages IDENTIFIED BY id-pskc-keyUsages
  SKEY-ATTRIBUTE PINPolicy IDENTIFIED BY id-pskc-pinPolicy
  CONTENT-TYPE SymmetricKeyPackage IDENTIFIED BY id-ct-KP-sKeyPackage

rfc6032
  CMS-ATTRIBUTE ContentDecryptKeyID IDENTIFIED BY id-aa-KP-contentDecryptKeyID
  CONTENT-TYPE EncryptedKeyPackage IDENTIFIED BY id-ct-KP-encryptedKeyPkg

rfc6120
  OTHER-NAME XmppAddr IDENTIFIED BY id-on-xmppAddr

rfc6210
  ALGORITHM MD5-XOR-EXPERIMENT IDENTIFIED BY id-alg-MD5-XOR-EXPERIMENT

rfc6211
  CMS-ATTRIBUTE CMSAlgorithmProtection IDENTIFIED BY id-aa-cmsAlgorithmProtect

rfc6402
  CMS-ATTRIBUTE CMCStatusInfo IDENTIFIED BY id-cmc-statusInfo
  CMS-ATTRIBUTE CMCStatusInfoV2 IDENTIFIED BY id-cmc-statusInfoV2
  CMS-ATTRIBUTE UTF8String IDENTIFIED BY id-cmc-identification
  CMS-ATTRIBUTE OCTET STRING IDENTIFIED BY id-cmc-identityProof
  CMS-ATTRIBUTE IdentifyProofV2 IDENTIFIED BY id-cmc-identityProofV2
  CMS-ATTRIBUTE OCTET STRING IDENTIFIED BY id-cmc-dataReturn
  CMS-ATTRIBUTE INTEGER IDENTIFIED BY id-cmc-transactionId
  CMS-ATTRIBUTE OCTET STRING IDENTIFIED BY id-cmc-senderNonce
  CMS-ATTRIBUTE OCTET STRING IDENTIFIED BY id-cmc-recipientNonce
  CMS-ATTRIBUTE AddExtensions IDENTIFIED BY id-cmc-addExtensions
  CMS-ATTRIBUTE EncryptedPOP IDENTIFIED BY id-cmc-encryptedPOP
  CMS-ATTRIBUTE DecryptedPOP IDENTIFIED BY id-cmc-decryptedPOP
  CMS-ATTRIBUTE LraPopWitness IDENTIFIED BY id-cmc-lraPOPWitness
  CMS-ATTRIBUTE GetCert IDENTIFIED BY id-cmc-getCert
  CMS-ATTRIBUTE GetCRL IDENTIFIED BY id-cmc-getCRL
  CMS-ATTRIBUTE RevokeRequest IDENTIFIED BY id-cmc-revokeRequest
  CMS-ATTRIBUTE OCTET STRING IDENTIFIED BY id-cmc-regInfo
  CMS-ATTRIBUTE OCTET STRING IDENTIFIED BY id-cmc-responseInfo
  CMS-ATTRIBUTE OCTET STRING IDENTIFIED BY id-cmc-queryPending
  CMS-ATTRIBUTE OCTET STRING IDENTIFIED BY id-cmc-popLinkRandom
  CMS-ATTRIBUTE OCTET STRING IDENTIFIED BY id-cmc-popLinkWitness
  CMS-ATTRIBUTE PopLinkWitnessV2 IDENTIFIED BY id-cmc-popLinkWitnessV2
  CMS-ATTRIBUTE CMCCertId IDENTIFIED BY id-cmc-confirmCertAcceptance
  CMS-ATTRIBUTE PublishTrustAnchors IDENTIFIED BY id-cmc-trustedAnchors
  CMS-ATTRIBUTE AuthPublish IDENTIFIED BY id-cmc-authData
  CMS-ATTRIBUTE BodyPartList IDENTIFIED BY id-cmc-batchRequests
  CMS-ATTRIBUTE BodyPartList IDENTIFIED BY id-cmc-batchResponses
  CMS-ATTRIBUTE CMCPublicationInfo IDENTIFIED BY id-cmc-publishCert
  CMS-ATTRIBUTE ModCertTemplate IDENTIFIED BY id-cmc-modCertTemplate
  CMS-ATTRIBUTE ControlsProcessed IDENTIFIED BY id-cmc-controlProcessed
  CMS-ATTRIBUTE ExtensionReq IDENTIFIED BY id-ExtensionReq
  CONTENT-TYPE PKIData IDENTIFIED BY id-cct-PKIData
  CONTENT-TYPE PKIResponse IDENTIFIED BY id-cct-PKIResponse
  CMS-ATTRIBUTE BodyPartPath IDENTIFIED BY id-cmc-raIdentityWitness
  CMS-ATTRIBUTE BodyPartPath IDENTIFIED BY id-cmc-responseBody

rfc6482
  CONTENT-TYPE RouteOriginAttestation IDENTIFIED BY id-ct-routeOriginAuthz

rfc6486
  CONTENT-TYPE Manifest IDENTIFIED BY id-ct-rpkiManifest

rfc6664
  SMIME-CAPS RSAKeyCapabilities IDENTIFIED BY rsaEncryption
  SMIME-CAPS package.DSAKeyCapabilities IDENTIFIED BY id-dsa
  SMIME-CAPS EC-SMimeCaps IDENTIFIED BY id-ecPublicKey
  SMIME-CAPS EC-SMimeCaps IDENTIFIED BY id-ecDH
  SMIME-CAPS EC-SMimeCaps IDENTIFIED BY id-ecMQV
  SMIME-CAPS AlgorithmIdentifier IDENTIFIED BY id-mgf1

rfc6955
  ALGORITHM DomainParameters IDENTIFIED BY id-alg-dh-pop
  ALGORITHM DomainParameters IDENTIFIED BY id-alg-dhPop-sha224
  ALGORITHM DomainParameters IDENTIFIED BY id-alg-dhPop-sha256
  ALGORITHM DomainParameters IDENTIFIED BY id-alg-dhPop-sha384
  ALGORITHM DomainParameters IDENTIFIED BY id-alg-dhPop-sha512

rfc6960
  RESPONSE BasicOCSPResponse IDENTIFIED BY id-pkix-ocsp-basic
  EXTENSION NULL IDENTIFIED BY id-pkix-ocsp-nocheck
  EXTENSION OCTET STRING IDENTIFIED BY id-pkix-ocsp-nonce
  EXTENSION AcceptableResponses IDENTIFIED BY id-pkix-ocsp-response
  EXTENSION ServiceLocator IDENTIFIED BY id-pkix-ocsp-service-locator
  EXTENSION PreferredSignatureAlgorithms IDENTIFIED BY id-pkix-ocsp-pref-sig-algs
  EXTENSION CrlID IDENTIFIED BY id-pkix-ocsp-crl
  EXTENSION ArchiveCutoff IDENTIFIED BY id-pkix-ocsp-archive-cutoff
  EXTENSION NULL IDENTIFIED BY id-pkix-ocsp-extended-revoke

rfc7030
  CMS-ATTRIBUTE AsymmetricDecryptKeyIdentifier IDENTIFIED BY id-aa-asymmDecryptKeyID

rfc7191
  CMS-ATTRIBUTE KeyPkgIdentifierAndReceiptReq IDENTIFIED BY id-aa-KP-keyPkgIdAndReceiptReq
  CONTENT-TYPE KeyPackageError IDENTIFIED BY id-ct-KP-keyPackageError
  CONTENT-TYPE KeyPackageReceipt IDENTIFIED BY id-ct-KP-keyPackageReceipt

rfc7292
  BAG-TYPE KeyBag IDENTIFIED BY id-keyBag
  BAG-TYPE PKCS8ShroudedKeyBag IDENTIFIED BY id-pkcs8ShroudedKeyBag
  BAG-TYPE CertBag IDENTIFIED BY id-certBag
  BAG-TYPE CRLBag IDENTIFIED BY id-CRLBag
  BAG-TYPE SecretBag IDENTIFIED BY id-secretBag
  BAG-TYPE SafeContents IDENTIFIED BY id-safeContentsBag
  ALGORITHM Pkcs-12PbeParams IDENTIFIED BY pbeWithSHAAnd128BitRC4
  ALGORITHM Pkcs-12PbeParams IDENTIFIED BY pbeWithSHAAnd40BitRC4
  ALGORITHM Pkcs-12PbeParams IDENTIFIED BY pbeWithSHAAnd3-KeyTripleDES-CBC
  ALGORITHM Pkcs-12PbeParams IDENTIFIED BY pbeWithSHAAnd2-KeyTripleDES-CBC
  ALGORITHM Pkcs-12PbeParams IDENTIFIED BY pbeWithSHAAnd128BitRC2-CBC
  ALGORITHM Pkcs-12PbeParams IDENTIFIED BY pbeWithSHAAnd40BitRC2-CBC
  CERT-BAG OCTET STRING IDENTIFIED BY { certTypes 1 }
  CERT-BAG IA5String IDENTIFIED BY { certTypes 2 }
  CRL-BAG OCTET STRING IDENTIFIED BY { crlTypes 1 }
  CMS-ATTRIBUTE BMPString (SIZE (1..255)) IDENTIFIED BY rfc2985.pkcs-9-at-friendlyName
  CMS-ATTRIBUTE OCTET STRING IDENTIFIED BY rfc2985.pkcs-9-at-localKeyId

rfc7508
  CMS-ATTRIBUTE SecureHeaderFields IDENTIFIED BY id-aa-secureHeaderFieldsIdentifier

rfc7585
  OTHER-NAME NAIRealm IDENTIFIED BY id-on-naiRealm

rfc7633
  EXTENSION Features IDENTIFIED BY id-pe-tlsfeature

rfc7773
  EXTENSION AuthenticationContexts IDENTIFIED BY id-ce-authContext

rfc7894
  CMS-ATTRIBUTE CHOICE { teletexString TeletexString (SIZE (1..255)), printableString PrintableString (SIZE (1..255)), universalString UniversalString (SIZE (1..255)), utf8String UTF8String (SIZE (1..255)), bmpString BMPString (SIZE (1..255)) } IDENTIFIED BY id-aa-otpChallenge
  CMS-ATTRIBUTE CHOICE { teletexString TeletexString (SIZE (1..255)), printableString PrintableString (SIZE (1..255)), universalString UniversalString (SIZE (1..255)), utf8String UTF8String (SIZE (1..255)), bmpString BMPString (SIZE (1..255)) } IDENTIFIED BY id-aa-revocationChallenge
  CMS-ATTRIBUTE CHOICE { teletexString TeletexString (SIZE (1..255)), printableString PrintableString (SIZE (1..255)), universalString UniversalString (SIZE (1..255)), utf8String UTF8String (SIZE (1..255)), bmpString BMPString (SIZE (1..255)) } IDENTIFIED BY id-aa-estIdentityLinking

rfc7906
  CMS-ATTRIBUTE CommunityIdentifiers IDENTIFIED BY id-aa-communityIdentifiers
  CMS-ATTRIBUTE BinarySigningTime IDENTIFIED BY id-aa-binarySigningTime
  CMS-ATTRIBUTE ContentType IDENTIFIED BY id-contentType
  CMS-ATTRIBUTE MessageDigest IDENTIFIED BY id-messageDigest
  CMS-ATTRIBUTE KeyPkgIdentifierAndReceiptReq IDENTIFIED BY id-aa-KP-keyPkgIdAndReceiptReq
  CMS-ATTRIBUTE KeyProvinceV2 IDENTIFIED BY id-aa-KP-keyProvinceV2
  CMS-ATTRIBUTE Manifest IDENTIFIED BY id-aa-KP-manifest
  CMS-ATTRIBUTE KeyAlgorithm IDENTIFIED BY id-kma-keyAlgorithm
  CMS-ATTRIBUTE Certificate IDENTIFIED BY id-at-userCertificate
  CMS-ATTRIBUTE KeyPkgReceiversV2 IDENTIFIED BY id-kma-keyPkgReceiversV2
  CMS-ATTRIBUTE TSECNomenclature IDENTIFIED BY id-kma-TSECNomenclature
  CMS-ATTRIBUTE package.KeyPurpose IDENTIFIED BY id-kma-keyPurpose
  CMS-ATTRIBUTE KeyUse IDENTIFIED BY id-kma-keyUse
  CMS-ATTRIBUTE TransOp IDENTIFIED BY id-kma-transportKey
  CMS-ATTRIBUTE KeyDistPeriod IDENTIFIED BY id-kma-keyDistPeriod
  CMS-ATTRIBUTE KeyValidityPeriod IDENTIFIED BY id-kma-keyValidityPeriod
  CMS-ATTRIBUTE KeyDuration IDENTIFIED BY id-kma-keyDuration
  CMS-ATTRIBUTE SplitID IDENTIFIED BY id-kma-splitID
  CMS-ATTRIBUTE KeyPkgType IDENTIFIED BY id-kma-keyPkgType
  CMS-ATTRIBUTE SignatureUsage IDENTIFIED BY id-kma-sigUsageV3
  CMS-ATTRIBUTE CertificateChoices IDENTIFIED BY id-kma-otherCertFormats
  CMS-ATTRIBUTE PkiPath IDENTIFIED BY id-at-pkiPath
  CMS-ATTRIBUTE CertificateSet IDENTIFIED BY id-kma-usefulCerts
  CMS-ATTRIBUTE AlgorithmIdentifier IDENTIFIED BY id-kma-keyWrapAlgorithm
  CMS-ATTRIBUTE ContentDecryptKeyID IDENTIFIED BY id-aa-KP-contentDecryptKeyID
  CMS-ATTRIBUTE SubjectInfoAccessSyntax IDENTIFIED BY id-pe-subjectInfoAccess
  CMS-ATTRIBUTE GeneralNames IDENTIFIED BY id-aa-KP-crlPointers
  CMS-ATTRIBUTE rfc2634.ContentHints IDENTIFIED BY rfc2634.id-aa-contentHint
  CMS-ATTRIBUTE Classification IDENTIFIED BY rfc2634.id-aa-securityLabel

rfc7914
  ALGORITHM Scrypt-params IDENTIFIED BY id-scrypt

rfc8017
  ALGORITHM NULL IDENTIFIED BY id-sha1
  ALGORITHM NULL IDENTIFIED BY id-sha224
  ALGORITHM NULL IDENTIFIED BY id-sha256
  ALGORITHM NULL IDENTIFIED BY id-sha384
  ALGORITHM NULL IDENTIFIED BY id-sha512
  ALGORITHM NULL IDENTIFIED BY id-sha512-224
  ALGORITHM NULL IDENTIFIED BY id-sha512-256
  ALGORITHM AlgorithmIdentifier IDENTIFIED BY id-mgf1
  ALGORITHM OCTET STRING IDENTIFIED BY id-pSpecified
  ALGORITHM RSAES-OAEP-params IDENTIFIED BY id-RSAES-OAEP
  ALGORITHM RSASSA-PSS-params IDENTIFIED BY id-RSASSA-PSS
  ALGORITHM NULL IDENTIFIED BY md2WithRSAEncryption
  ALGORITHM NULL IDENTIFIED BY md5WithRSAEncryption
  ALGORITHM NULL IDENTIFIED BY sha1WithRSAEncryption
  ALGORITHM NULL IDENTIFIED BY sha224WithRSAEncryption
  ALGORITHM NULL IDENTIFIED BY sha256WithRSAEncryption
  ALGORITHM NULL IDENTIFIED BY sha384WithRSAEncryption
  ALGORITHM NULL IDENTIFIED BY sha512WithRSAEncryption
  ALGORITHM NULL IDENTIFIED BY sha512-224WithRSAEncryption
  ALGORITHM NULL IDENTIFIED BY sha512-256WithRSAEncryption
  ALGORITHM NULL IDENTIFIED BY rsaEncryption

rfc8018
  ALGORITHM NULL IDENTIFIED BY id-hmacWithSHA1
  ALGORITHM NULL IDENTIFIED BY id-hmacWithSHA224
  ALGORITHM NULL IDENTIFIED BY id-hmacWithSHA256
  ALGORITHM NULL IDENTIFIED BY id-hmacWithSHA384
  ALGORITHM NULL IDENTIFIED BY id-hmacWithSHA512
  ALGORITHM NULL IDENTIFIED BY id-hmacWithSHA512-224
  ALGORITHM NULL IDENTIFIED BY id-hmacWithSHA512-256
  ALGORITHM PBEParameter IDENTIFIED BY pbeWithMD2AndDES-CBC
  ALGORITHM PBEParameter IDENTIFIED BY pbeWithMD2AndRC2-CBC
  ALGORITHM PBEParameter IDENTIFIED BY pbeWithMD5AndDES-CBC
  ALGORITHM PBEParameter IDENTIFIED BY pbeWithMD5AndRC2-CBC
  ALGORITHM PBEParameter IDENTIFIED BY pbeWithSHA1AndDES-CBC
  ALGORITHM PBEParameter IDENTIFIED BY pbeWithSHA1AndRC2-CBC
  ALGORITHM PBES2-params IDENTIFIED BY id-PBES2
  ALGORITHM PBKDF2-params IDENTIFIED BY id-PBKDF2
  ALGORITHM PBMAC1-params IDENTIFIED BY id-PBMAC1
  ALGORITHM OCTET STRING (SIZE (8)) IDENTIFIED BY desCBC
  ALGORITHM OCTET STRING (SIZE (8)) IDENTIFIED BY des-EDE3-CBC
  ALGORITHM RC2-CBC-Parameter IDENTIFIED BY rc2CBC
  ALGORITHM RC5-CBC-Parameters IDENTIFIED BY rc5-CBC-PAD
  ALGORITHM OCTET STRING (SIZE (16)) IDENTIFIED BY aes128-CBC-PAD
  ALGORITHM OCTET STRING (SIZE (16)) IDENTIFIED BY aes192-CBC-PAD
  ALGORITHM OCTET STRING (SIZE (16)) IDENTIFIED BY aes256-CBC-PAD

rfc8103
  ALGORITHM AEADChaCha20Poly1305Nonce IDENTIFIED BY id-alg-AEADChaCha20Poly1305

rfc8226
  EXTENSION TNAuthorizationList IDENTIFIED BY id-pe-TNAuthList
  EXTENSION JWTClaimConstraints IDENTIFIED BY id-pe-JWTClaimConstraints

rfc8358
  CONTENT-TYPE OCTET STRING IDENTIFIED BY id-ct-asciiTextWithCRLF
  CONTENT-TYPE OCTET STRING IDENTIFIED BY id-ct-epub
  CONTENT-TYPE OCTET STRING IDENTIFIED BY id-ct-htmlWithCRLF
  CONTENT-TYPE OCTET STRING IDENTIFIED BY id-ct-pdf
  CONTENT-TYPE OCTET STRING IDENTIFIED BY id-ct-postscript
  CONTENT-TYPE OCTET STRING IDENTIFIED BY id-ct-utf8TextWithCRLF
  CONTENT-TYPE OCTET STRING IDENTIFIED BY id-ct-xml

rfc8360
  EXTENSION IPAddrBlocks IDENTIFIED BY id-pe-ipAddrBlocks-v2
  EXTENSION ASIdentifiers IDENTIFIED BY id-pe-autonomousSysIds-v2

rfc8398
  OTHER-NAME SmtpUTF8Mailbox IDENTIFIED BY id-on-SmtpUTF8Mailbox

rfc8418
  ALGORITHM KeyWrapAlgorithmIdentifier IDENTIFIED BY dhSinglePass-stdDH-hkdf-sha256-scheme
  ALGORITHM KeyWrapAlgorithmIdentifier IDENTIFIED BY dhSinglePass-stdDH-hkdf-sha384-scheme
  ALGORITHM KeyWrapAlgorithmIdentifier IDENTIFIED BY dhSinglePass-stdDH-hkdf-sha512-scheme

rfc8419
  ALGORITHM ShakeOutputLen IDENTIFIED BY id-shake256-len

rfc8479
  CMS-ATTRIBUTE ValidationParams IDENTIFIED BY id-attr-validation-parameters

rfc8520
  EXTENSION MUDURLSyntax IDENTIFIED BY id-pe-mud-url
  EXTENSION MUDsignerSyntax IDENTIFIED BY id-pe-mudsigner

rfc8649
  EXTENSION HashedRootKey IDENTIFIED BY id-ce-hashOfRootKey

rfc8696
  OTHER-RECIPIENT KeyTransPSKRecipientInfo IDENTIFIED BY id-ori-keyTransPSK
  OTHER-RECIPIENT KeyAgreePSKRecipientInfo IDENTIFIED BY id-ori-keyAgreePSK

rfc8702
  ALGORITHM KMACwithSHAKE128-params IDENTIFIED BY id-KMACWithSHAKE128
  ALGORITHM KMACwithSHAKE256-params IDENTIFIED BY id-KMACWithSHAKE256
