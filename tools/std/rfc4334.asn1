-- RFC 4334.
WLANCertExtn DEFINITIONS IMPLICIT TAGS ::= BEGIN
id-pkix OBJECT IDENTIFIER ::= { iso(1) identified-organization(3) dod(6) internet(1) security(5) mechanisms(5) pkix(7) }
id-pe OBJECT IDENTIFIER ::= { id-pkix 1 }
id-kp OBJECT IDENTIFIER ::= { id-pkix 3 }
id-aca OBJECT IDENTIFIER ::= { id-pkix 10 }
id-kp-eapOverPPP OBJECT IDENTIFIER ::= { id-kp 13 }
id-kp-eapOverLAN OBJECT IDENTIFIER ::= { id-kp 14 }
id-pe-wlanSSID OBJECT IDENTIFIER ::= { id-pe 13 }
SSIDList ::= SEQUENCE SIZE (1..MAX) OF SSID
SSID ::= OCTET STRING (SIZE (1..32))
id-aca-wlanSSID OBJECT IDENTIFIER ::= { id-aca 7 }
END
