KMAttributes2012 DEFINITIONS IMPLICIT TAGS ::= BEGIN
KeyPurpose ::= ENUMERATED { n-a(0), a(65), b(66), l(76), m(77), r(82), s(83), t(84), v(86), x(88), z(90) }
END
