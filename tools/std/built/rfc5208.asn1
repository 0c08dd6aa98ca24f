-- Attributes of LDAP.
PKCS-8 DEFINITIONS EXPLICIT TAGS ::= BEGIN
Attributes ::= SET OF rfc2251.Attribute
Version ::= INTEGER { v1(0), v2(1) }
END
