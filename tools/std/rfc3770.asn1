-- RFC 3770; the number of id-aca-wlanSSID, later reassigned, left out.
WLANCertExtn DEFINITIONS IMPLICIT TAGS ::= BEGIN
id-kp-eapOverPPP OBJECT IDENTIFIER ::= { iso(1) identified-organization(3) dod(6) internet(1) security(5) mechanisms(5) pkix(7) kp(3) 13 }
id-kp-eapOverLAN OBJECT IDENTIFIER ::= { iso(1) identified-organization(3) dod(6) internet(1) security(5) mechanisms(5) pkix(7) kp(3) 14 }
id-pe-wlanSSID OBJECT IDENTIFIER ::= { iso(1) identified-organization(3) dod(6) internet(1) security(5) mechanisms(5) pkix(7) pe(1) 13 }
SSIDList ::= SEQUENCE SIZE (1..MAX) OF SSID
SSID ::= OCTET STRING (SIZE (1..32))
END
