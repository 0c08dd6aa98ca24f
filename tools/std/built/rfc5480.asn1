PKIX1Algorithms2008 DEFINITIONS EXPLICIT TAGS ::= BEGIN
DSS-Parms ::= rfc3279.Dss-Parms
END
