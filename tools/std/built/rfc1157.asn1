-- The trap keeps the tag of SEQUENCE; parts of messages have names of their own.
RFC1157-SNMP DEFINITIONS EXPLICIT TAGS ::= BEGIN
Version ::= INTEGER { version-1(0) }
Community ::= OCTET STRING
RequestID ::= INTEGER
ErrorStatus ::= INTEGER { noError(0), tooBig(1), noSuchName(2), badValue(3), readOnly(4), genErr(5) }
ErrorIndex ::= INTEGER
RequestBase ::= SEQUENCE {
  request-id RequestID,
  error-status ErrorStatus,
  error-index ErrorIndex,
  variable-bindings VarBindList }
Trap-PDU ::= SEQUENCE {
  enterprise OBJECT IDENTIFIER,
  agent-addr NetworkAddress,
  generic-trap INTEGER { coldStart(0), warmStart(1), linkDown(2), linkUp(3), authenticationFailure(4), egpNeighborLoss(5),
    enterpriseSpecific(6) },
  specific-trap INTEGER,
  time-stamp TimeTicks,
  variable-bindings VarBindList }
Pdus ::= PDUs
END
