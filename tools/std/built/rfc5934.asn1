TAMP-Protocol-v2 DEFINITIONS IMPLICIT TAGS ::= BEGIN
SingleAttribute ::= rfc2985.SingleAttribute
END
