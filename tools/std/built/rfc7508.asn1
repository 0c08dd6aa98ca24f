-- Python's printable characters, with tabs and ends of lines, rather than those of VisibleString.
SMimeSecureHeadersV1 DEFINITIONS IMPLICIT TAGS ::= BEGIN
HeaderFieldName ::= VisibleString (FROM (PRINTABLE EXCEPT ":"))
END
