WLANCertExtn DEFINITIONS IMPLICIT TAGS ::= BEGIN
SSID ::= OCTET STRING
END
