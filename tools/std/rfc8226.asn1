-- RFC 8226, appendix A.
TN-Module-2016 DEFINITIONS EXPLICIT TAGS ::= BEGIN
id-pe-JWTClaimConstraints OBJECT IDENTIFIER ::= { iso(1) identified-organization(3) dod(6) internet(1) security(5) mechanisms(5) pkix(7) pe(1) 27 }
JWTClaimConstraints ::= SEQUENCE {
  mustInclude [0] JWTClaimNames OPTIONAL,
  permittedValues [1] JWTClaimPermittedValuesList OPTIONAL }
  (WITH COMPONENTS {..., mustInclude PRESENT} | WITH COMPONENTS {..., permittedValues PRESENT})
JWTClaimPermittedValuesList ::= SEQUENCE SIZE (1..MAX) OF JWTClaimPermittedValues
JWTClaimPermittedValues ::= SEQUENCE {
  claim JWTClaimName,
  permitted SEQUENCE SIZE (1..MAX) OF UTF8String }
JWTClaimNames ::= SEQUENCE SIZE (1..MAX) OF JWTClaimName
JWTClaimName ::= IA5String
id-pe-TNAuthList OBJECT IDENTIFIER ::= { iso(1) identified-organization(3) dod(6) internet(1) security(5) mechanisms(5) pkix(7) pe(1) 26 }
TNAuthorizationList ::= SEQUENCE SIZE (1..MAX) OF TNEntry
TNEntry ::= CHOICE {
  spc [0] ServiceProviderCode,
  range [1] TelephoneNumberRange,
  one [2] TelephoneNumber }
ServiceProviderCode ::= IA5String
TelephoneNumberRange ::= SEQUENCE {
  start TelephoneNumber,
  count INTEGER (2..MAX), ... }
TelephoneNumber ::= IA5String (SIZE (1..15)) (FROM ("0123456789#*"))
id-ad-stirTNList OBJECT IDENTIFIER ::= { iso(1) identified-organization(3) dod(6) internet(1) security(5) mechanisms(5) pkix(7) ad(48) 14 }
END
