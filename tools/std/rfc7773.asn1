-- RFC 7773.
ACE DEFINITIONS EXPLICIT TAGS ::= BEGIN
e-legnamnden OBJECT IDENTIFIER ::= { iso(1) member-body(2) se(752) 201 }
id-eleg-ce OBJECT IDENTIFIER ::= { e-legnamnden 5 }
id-ce-authContext OBJECT IDENTIFIER ::= { id-eleg-ce 1 }
AuthenticationContexts ::= SEQUENCE SIZE (1..MAX) OF AuthenticationContext
AuthenticationContext ::= SEQUENCE {
  contextType UTF8String,
  contextInfo UTF8String OPTIONAL }
END
