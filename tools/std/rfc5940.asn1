-- RFC 5940.
CMSRevocationInfo DEFINITIONS EXPLICIT TAGS ::= BEGIN
IMPORTS ContentInfo FROM rfc5652
  OCSPResponse FROM rfc6960;
id-ri OBJECT IDENTIFIER ::= { iso(1) identified-organization(3) dod(6) internet(1) security(5) mechanisms(5) pkix(7) 16 }
id-ri-ocsp-response OBJECT IDENTIFIER ::= { id-ri 2 }
id-ri-scvp OBJECT IDENTIFIER ::= { id-ri 4 }
SCVPReqRes ::= SEQUENCE {
  request [0] EXPLICIT ContentInfo OPTIONAL,
  response ContentInfo }
END
