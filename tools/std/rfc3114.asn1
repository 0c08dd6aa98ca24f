-- RFC 3114.
TestSecurityPolicies DEFINITIONS EXPLICIT TAGS ::= BEGIN
id-smime OBJECT IDENTIFIER ::= { iso(1) member-body(2) us(840) rsadsi(113549) pkcs(1) pkcs-9(9) 16 }
id-tsp OBJECT IDENTIFIER ::= { id-smime 7 }
id-tsp-TEST-Amoco OBJECT IDENTIFIER ::= { id-tsp 1 }
Amoco-SecurityClassification ::= INTEGER { amoco-general(6), amoco-confidential(7), amoco-highly-confidential(8) }
id-tsp-TEST-Caterpillar OBJECT IDENTIFIER ::= { id-tsp 2 }
Caterpillar-SecurityClassification ::= INTEGER { caterpillar-public(6), caterpillar-green(7), caterpillar-yellow(8), caterpillar-red(9) }
id-tsp-TEST-Whirlpool OBJECT IDENTIFIER ::= { id-tsp 3 }
Whirlpool-SecurityClassification ::= INTEGER { whirlpool-public(6), whirlpool-internal(7), whirlpool-confidential(8) }
id-tsp-TEST-Whirlpool-Categories OBJECT IDENTIFIER ::= { id-tsp 4 }
SecurityCategoryValues ::= SEQUENCE OF UTF8String
END
