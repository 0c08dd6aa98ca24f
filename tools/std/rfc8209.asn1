-- RFC 8209.
BGPSECEKU DEFINITIONS EXPLICIT TAGS ::= BEGIN
id-kp OBJECT IDENTIFIER ::= { iso(1) identified-organization(3) dod(6) internet(1) security(5) mechanisms(5) pkix(7) 3 }
id-kp-bgpsec-router OBJECT IDENTIFIER ::= { id-kp 30 }
END
