-- RFC 7229.
TestPolicies DEFINITIONS EXPLICIT TAGS ::= BEGIN
id-pkix OBJECT IDENTIFIER ::= { iso(1) identified-organization(3) dod(6) internet(1) security(5) mechanisms(5) pkix(7) }
id-TEST OBJECT IDENTIFIER ::= { id-pkix 13 }
id-TEST-certPolicyOne OBJECT IDENTIFIER ::= { id-TEST 1 }
id-TEST-certPolicyTwo OBJECT IDENTIFIER ::= { id-TEST 2 }
id-TEST-certPolicyThree OBJECT IDENTIFIER ::= { id-TEST 3 }
id-TEST-certPolicyFour OBJECT IDENTIFIER ::= { id-TEST 4 }
id-TEST-certPolicyFive OBJECT IDENTIFIER ::= { id-TEST 5 }
id-TEST-certPolicySix OBJECT IDENTIFIER ::= { id-TEST 6 }
id-TEST-certPolicySeven OBJECT IDENTIFIER ::= { id-TEST 7 }
id-TEST-certPolicyEight OBJECT IDENTIFIER ::= { id-TEST 8 }
END
