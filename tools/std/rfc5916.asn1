-- RFC 5916.
DeviceOwnerAttribute DEFINITIONS EXPLICIT TAGS ::= BEGIN
id-deviceOwner OBJECT IDENTIFIER ::= { joint-iso-itu-t(2) country(16) us(840) organization(1) gov(101) dod(2) infosec(1) attributes(5) 69 }
END
