CMSFirmwareWrapper DEFINITIONS IMPLICIT TAGS ::= BEGIN
FirmwarePackageInfo ::= SEQUENCE {
  fwPkgType INTEGER OPTIONAL,
  dependencies SEQUENCE OF PreferredOrLegacyPackageIdentifier OPTIONAL } (SIZE (1..2))
END
