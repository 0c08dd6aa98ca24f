CMS-GOST DEFINITIONS IMPLICIT TAGS ::= BEGIN
GostR3410-94-PublicKeyParameters ::= rfc4357.GostR3410-94-PublicKeyParameters
GostR3410-2001-PublicKeyParameters ::= rfc4357.GostR3410-2001-PublicKeyParameters
END
