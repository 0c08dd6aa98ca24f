-- A name is a string of octets; names for numbers.
OCSP DEFINITIONS EXPLICIT TAGS ::= BEGIN
GeneralName ::= OCTET STRING
OCSPResponseStatus ::= ENUMERATED { successful(0), malformedRequest(1), internalError(2), tryLater(3), undefinedStatus(4),
  sigRequired(5), unauthorized(6) }

CRLReason ::= ENUMERATED { unspecified(0), keyCompromise(1), cACompromise(2), affiliationChanged(3), superseded(4),
  cessationOfOperation(5), certificateHold(6), removeFromCRL(8), privilegeWithdrawn(9), aACompromise(10) }
END
