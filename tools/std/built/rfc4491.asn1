PKIXGOST DEFINITIONS IMPLICIT TAGS ::= BEGIN
GostR3410-2001-PublicKey ::= rfc4357.GostR3410-2001-PublicKey
GostR3410-2001-PublicKeyParameters ::= rfc4357.GostR3410-2001-PublicKeyParameters
GostR3410-94-PublicKey ::= rfc4357.GostR3410-94-PublicKey
GostR3410-94-PublicKeyParameters ::= rfc4357.GostR3410-94-PublicKeyParameters
END
