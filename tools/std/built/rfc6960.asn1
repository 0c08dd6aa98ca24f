OCSP DEFINITIONS EXPLICIT TAGS ::= BEGIN
OCSPResponseStatus ::= ENUMERATED { successful(0), malformedRequest(1), internalError(2), tryLater(3), undefinedStatus(4),
  sigRequired(5), unauthorized(6) }
END
