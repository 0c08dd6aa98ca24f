-- RFC 4491; keys and parameters left out.
PKIXGOST DEFINITIONS IMPLICIT TAGS ::= BEGIN
IMPORTS id-GostR3411-94-with-GostR3410-94, id-GostR3411-94-with-GostR3410-2001, id-GostR3410-94, id-GostR3410-2001 FROM rfc4357;

END
