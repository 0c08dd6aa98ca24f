-- Attribute values without a minimum number; each kind of attribute has a class of its own.
SymmetricKeyPackageModulev1 DEFINITIONS IMPLICIT TAGS ::= BEGIN
SKeyAttribute ::= SEQUENCE {
  attrType AttributeType,
  attrValues SET OF AttributeValue }
SKeyPkgAttribute ::= SEQUENCE {
  attrType AttributeType,
  attrValues SET OF AttributeValue }
Encoding ::= UTF8String ("DECIMAL" | "HEXADECIMAL" | "ALPHANUMERIC" | "BASE64" | "BINARY")
At-pskc-manufacturer ::= UTF8String
At-pskc-serialNo ::= UTF8String
At-pskc-model ::= UTF8String
At-pskc-issueNo ::= UTF8String
At-pskc-deviceBinding ::= UTF8String
At-pskc-deviceStartDate ::= GeneralizedTime
At-pskc-deviceExpiryDate ::= GeneralizedTime
At-pskc-moduleId ::= UTF8String
At-pskc-deviceUserId ::= UTF8String
At-pskc-keyUserId ::= UTF8String
At-pskc-algorithm ::= UTF8String
At-pskc-issuer ::= UTF8String
At-pskc-keyProfileId ::= UTF8String
At-pskc-keyReference ::= UTF8String
At-pskc-friendlyName ::= FriendlyName
At-pskc-algorithmParameters ::= PSKCAlgorithmParameters
At-pskc-counter ::= INTEGER (0..MAX)
At-pskc-time ::= rfc6019.BinaryTime
At-pskc-timeInterval ::= INTEGER (0..MAX)
At-pskc-timeDrift ::= INTEGER (0..MAX)
At-pskc-valueMAC ::= ValueMac
At-pskc-keyId ::= UTF8String
At-pskc-keyStartDate ::= GeneralizedTime
At-pskc-keyExpiryDate ::= GeneralizedTime
At-pskc-numberOfTransactions ::= INTEGER (0..MAX)
At-pskc-keyUsage ::= PSKCKeyUsages
At-pskc-pinPolicy ::= PINPolicy
END
