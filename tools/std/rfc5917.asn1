-- RFC 5917.
ClearanceSponsorAttribute DEFINITIONS EXPLICIT TAGS ::= BEGIN
id-clearanceSponsor OBJECT IDENTIFIER ::= { joint-iso-itu-t(2) country(16) us(840) organization(1) gov(101) dod(2) infosec(1) attributes(5) 68 }
ub-clearance-sponsor INTEGER ::= 64
END
