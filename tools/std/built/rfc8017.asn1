PKCS-1 DEFINITIONS EXPLICIT TAGS ::= BEGIN
RSAES-OAEP-params ::= rfc4055.RSAES-OAEP-params
RSASSA-PSS-params ::= rfc4055.RSASSA-PSS-params
END
