CryptographicMessageSyntaxAlgorithms DEFINITIONS IMPLICIT TAGS ::= BEGIN
DHDomainParameters ::= rfc3279.DomainParameters
RC2-CBC-Parameter ::= rfc8018.RC2-CBC-Parameter
RC2CBCParameter ::= rfc8018.RC2-CBC-Parameter
CBCParameter ::= rfc5753.IV
END
