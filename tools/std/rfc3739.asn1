-- RFC 3739, appendix A.1.
PKIXqualified88 DEFINITIONS EXPLICIT TAGS ::= BEGIN
IMPORTS GeneralName, id-pkix, id-pe, AlgorithmIdentifier, DirectoryString, AttributeType FROM rfc5280;
id-pda OBJECT IDENTIFIER ::= { id-pkix 9 }
id-pda-dateOfBirth AttributeType ::= { id-pda 1 }
DateOfBirth ::= GeneralizedTime
id-pda-placeOfBirth AttributeType ::= { id-pda 2 }
PlaceOfBirth ::= DirectoryString
id-pda-gender AttributeType ::= { id-pda 3 }
Gender ::= PrintableString (SIZE (1)) ("M" | "F" | "m" | "f") -- in a comment
id-pda-countryOfCitizenship AttributeType ::= { id-pda 4 }
CountryOfCitizenship ::= PrintableString (SIZE (2))
id-pda-countryOfResidence AttributeType ::= { id-pda 5 }
CountryOfResidence ::= PrintableString (SIZE (2))
id-pe-biometricInfo OBJECT IDENTIFIER ::= { id-pe 2 }
BiometricSyntax ::= SEQUENCE OF BiometricData
BiometricData ::= SEQUENCE {
  typeOfBiometricData TypeOfBiometricData,
  hashAlgorithm AlgorithmIdentifier,
  biometricDataHash OCTET STRING,
  sourceDataUri IA5String OPTIONAL }
TypeOfBiometricData ::= CHOICE {
  predefinedBiometricType PredefinedBiometricType,
  biometricDataOid OBJECT IDENTIFIER }
PredefinedBiometricType ::= INTEGER { picture(0), handwritten-signature(1) } (picture | handwritten-signature)
id-pe-qcStatements OBJECT IDENTIFIER ::= { id-pe 3 }
QCStatements ::= SEQUENCE OF QCStatement
QCStatement ::= SEQUENCE {
  statementId OBJECT IDENTIFIER,
  statementInfo ANY DEFINED BY statementId OPTIONAL }
id-qcs OBJECT IDENTIFIER ::= { id-pkix 11 }
id-qcs-pkixQCSyntax-v1 OBJECT IDENTIFIER ::= { id-qcs 1 }
id-qcs-pkixQCSyntax-v2 OBJECT IDENTIFIER ::= { id-qcs 2 }
SemanticsInformation ::= SEQUENCE {
  semanticsIndentifier OBJECT IDENTIFIER OPTIONAL,
  nameRegistrationAuthorities NameRegistrationAuthorities OPTIONAL }
  (WITH COMPONENTS {..., semanticsIndentifier PRESENT} | WITH COMPONENTS {..., nameRegistrationAuthorities PRESENT})
NameRegistrationAuthorities ::= SEQUENCE SIZE (1..MAX) OF GeneralName
END
