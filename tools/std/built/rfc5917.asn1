ClearanceSponsorAttribute DEFINITIONS EXPLICIT TAGS ::= BEGIN
DirectoryString ::= CHOICE { utf8String UTF8String (SIZE (1..64)) }
END
