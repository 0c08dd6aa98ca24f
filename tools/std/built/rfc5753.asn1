CMSECCAlgs-2009-88 DEFINITIONS IMPLICIT TAGS ::= BEGIN
IV ::= OCTET STRING
END
