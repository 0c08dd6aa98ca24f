EnrollmentMessageSyntax-2011-v88 DEFINITIONS IMPLICIT TAGS ::= BEGIN
PKIData ::= SEQUENCE {
  controlSequence SEQUENCE OF TaggedAttribute,
  reqSequence SEQUENCE OF TaggedRequest,
  cmsSequence SEQUENCE OF TaggedContentInfo,
  otherMsgSequence SEQUENCE OF OtherMsg }
ResponseBody ::= SEQUENCE {
  controlSequence SEQUENCE OF TaggedAttribute,
  cmsSequence SEQUENCE OF TaggedContentInfo,
  otherMsgSequence SEQUENCE OF OtherMsg }
ChangeSubjectName ::= SEQUENCE {
  subject rfc5280.Name OPTIONAL,
  subjectAlt rfc5280.GeneralNames OPTIONAL }
CMCStatusInfo ::= SEQUENCE {
  cMCStatus CMCStatus,
  bodyList SEQUENCE OF BodyPartID,
  statusString UTF8String OPTIONAL,
  otherInfo CHOICE { failInfo CMCFailInfo, pendInfo PendInfo } OPTIONAL }
CMCStatusInfoV2 ::= SEQUENCE {
  cMCStatus CMCStatus,
  bodyList SEQUENCE OF BodyPartReference,
  statusString UTF8String OPTIONAL,
  otherInfo CHOICE {
    failInfo CMCFailInfo,
    pendInfo PendInfo,
    extendedFailInfo SEQUENCE { failInfoOID OBJECT IDENTIFIER, failInfoValue AttributeValue } } OPTIONAL }
ControlsProcessed ::= SEQUENCE { bodyList SEQUENCE OF BodyPartReference }
END
