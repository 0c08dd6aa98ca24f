-- RFC 1905, section 3.
SNMPv2-PDU DEFINITIONS EXPLICIT TAGS ::= BEGIN
IMPORTS ObjectName, ObjectSyntax, Integer32 FROM rfc1902;
PDUs ::= CHOICE {
  get-request GetRequest-PDU,
  get-next-request GetNextRequest-PDU,
  get-bulk-request GetBulkRequest-PDU,
  response Response-PDU,
  set-request SetRequest-PDU,
  inform-request InformRequest-PDU,
  snmpV2-trap SNMPv2-Trap-PDU,
  report Report-PDU }
GetRequest-PDU ::= [0] IMPLICIT PDU
GetNextRequest-PDU ::= [1] IMPLICIT PDU
Response-PDU ::= [2] IMPLICIT PDU
SetRequest-PDU ::= [3] IMPLICIT PDU
GetBulkRequest-PDU ::= [5] IMPLICIT BulkPDU
InformRequest-PDU ::= [6] IMPLICIT PDU
SNMPv2-Trap-PDU ::= [7] IMPLICIT PDU
Report-PDU ::= [8] IMPLICIT PDU
max-bindings INTEGER ::= 2147483647
PDU ::= SEQUENCE {
  request-id Integer32,
  error-status INTEGER { noError(0), tooBig(1), noSuchName(2), badValue(3), readOnly(4), genErr(5), noAccess(6),
    wrongType(7), wrongLength(8), wrongEncoding(9), wrongValue(10), noCreation(11), inconsistentValue(12),
    resourceUnavailable(13), commitFailed(14), undoFailed(15), authorizationError(16), notWritable(17),
    inconsistentName(18) },
  error-index INTEGER (0..max-bindings),
  variable-bindings VarBindList }
BulkPDU ::= SEQUENCE {
  request-id Integer32,
  non-repeaters INTEGER (0..max-bindings),
  max-repetitions INTEGER (0..max-bindings),
  variable-bindings VarBindList }
VarBind ::= SEQUENCE {
  name ObjectName,
  CHOICE {
    value ObjectSyntax,
    unSpecified NULL,
    noSuchObject [0] IMPLICIT NULL,
    noSuchInstance [1] IMPLICIT NULL,
    endOfMibView [2] IMPLICIT NULL } }
VarBindList ::= SEQUENCE (SIZE (0..max-bindings)) OF VarBind
END
