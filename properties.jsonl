{"id": "C01", "title": "First armored block is returned, whatever surrounds it", "statement": "If a file consists of lines none of which (after stripping) is a start marker, then a start marker line for marker pair i, then lines none of which is the stop marker of pair i, then that stop marker, then anything, readPemBlocksFromFile returns index i and the concatenation of the base64 decodings of the body lines; the leading junk and everything after the stop marker have no influence on the result.", "quantifier": "all files (finite sequences of text lines), all marker tuples, all bodies and all surrounding text", "why_tests_cant": "the claim ranges over unbounded files and marker lists; a test fixes a handful of files", "anchors": ["pyasn1_modules/pem.py:readPemBlocksFromFile"]}
{"id": "C02", "title": "No block means (-1, empty); unterminated block means (index, empty)", "statement": "readPemBlocksFromFile returns (-1, '') if no line of the remaining file is a start marker, and returns (i, '') having consumed the file to the end if a block of pair i is started but its stop marker never occurs; no other inputs return an index of -1.", "quantifier": "all files and marker tuples", "why_tests_cant": "needs an invariant over the whole scan of an arbitrary file", "anchors": ["pyasn1_modules/pem.py:readPemBlocksFromFile"]}
{"id": "C03", "title": "Repeated calls enumerate the blocks of a file in order", "statement": "Calling readPemBlocksFromFile repeatedly on one file object that holds n well-formed blocks separated by arbitrary non-marker text returns exactly those n blocks in file order, and the next call reports no block: the reader stops right after the stop marker line and never re-reads or skips a line.", "quantifier": "all n, all sequences of blocks and separators, all marker tuples with distinct markers", "why_tests_cant": "a history property over an unbounded number of calls sharing one file position", "anchors": ["pyasn1_modules/pem.py:readPemBlocksFromFile", "tools/x509dump.py", "tools/pkcs8dump.py"]}
{"id": "C04", "title": "PEM wrapping round-trips for every line width that is a multiple of four", "statement": "For every byte string and every positive line width divisible by 4, writing the standard base64 text in lines of that width between the markers and reading it back with readPemBlocksFromFile (or readPemFromFile) yields the original bytes. For widths not divisible by 4 the reader does not recover the bytes in general, although readBase64fromText on the same text does.", "quantifier": "all byte strings and all line widths", "why_tests_cant": "infinitely many payloads and widths; the width condition is a boundary no finite sample identifies", "anchors": ["pyasn1_modules/pem.py:readPemBlocksFromFile", "pyasn1_modules/pem.py:readPemFromFile", "pyasn1_modules/pem.py:readBase64fromText"]}
{"id": "C05", "title": "Whitespace around lines is immaterial", "statement": "Adding or removing leading and trailing white space on any lines of the file (including CRLF line ends) does not change what readPemBlocksFromFile returns or raises.", "quantifier": "all files and all ways of padding their lines", "why_tests_cant": "quantifies over pairs of files", "anchors": ["pyasn1_modules/pem.py:readPemBlocksFromFile"]}
{"id": "C06", "title": "A stop marker of another pair, or a second start marker, inside a block is treated as body text", "statement": "Inside a block of pair i, the only line that ends the block is the stop marker registered for i; start markers and stop markers of other pairs are fed to the base64 decoder as body lines.", "quantifier": "all marker tuples and files", "why_tests_cant": "interaction of every marker with every state", "anchors": ["pyasn1_modules/pem.py:readPemBlocksFromFile"]}
{"id": "C07", "title": "Duplicate markers resolve to the last index", "statement": "When the same start (or stop) marker text occurs in several marker pairs, the highest index with that text wins; consequently a pair whose stop marker is reused by a later pair can never terminate a block started by its own distinct start marker.", "quantifier": "all marker tuples with repeats", "why_tests_cant": "ranges over arbitrary marker lists", "anchors": ["pyasn1_modules/pem.py:readPemBlocksFromFile"]}
{"id": "C08", "title": "Base64 helpers decode exactly what the standard encoder produced, ignoring foreign characters", "statement": "readBase64fromText returns b for every text obtained from the standard base64 encoding of b by inserting any characters outside the base64 alphabet anywhere (line breaks, blanks); readBase64FromFile agrees with readBase64fromText on the whole remaining content; text containing a non-ASCII character that UTF-8 encodes to foreign bytes is handled the same way. For any text at all, what is returned (or that an exception is raised) is given by a grammar of groups of four digits, the last one possibly cut short by padding after which everything is ignored; so of two encodings in a row the second is lost if the first ends with padding.", "quantifier": "all byte strings b and all insertions", "why_tests_cant": "unbounded payloads and insertion patterns", "anchors": ["pyasn1_modules/pem.py:readBase64fromText", "pyasn1_modules/pem.py:readBase64FromFile"]}
{"id": "C09", "title": "The dump tools process every block up to the first empty one and report the right count", "statement": "The read loop shared by the tools (read block; stop if it is empty; decode; strip trailing bytes; check; count) visits the blocks of standard input in order, stops at the first block with an empty body or at end of input, and the count it prints equals the number of blocks it processed. Each script prints every legal value of the class its PEM label stands for, whatever text is between the blocks.", "quantifier": "all inputs, any number of blocks", "why_tests_cant": "loop over unbounded input", "anchors": ["tools/x509dump.py", "tools/crldump.py", "tools/pkcs10dump.py", "tools/pkcs8dump.py"]}
{"id": "C10", "title": "OID builder is concatenation", "statement": "Every copy of the OID builder (_OID / _buildOid) in the package returns the OID whose arcs are the concatenation, in order, of its arguments' arcs, where an integer counts as one arc; hence nesting is associative and building from a parent keeps the parent as a prefix.", "quantifier": "all argument lists of OIDs and non-negative integers, all 19 copies", "why_tests_cant": "unbounded argument lists; copies could drift apart", "anchors": ["pyasn1_modules/rfc4211.py:_buildOid", "pyasn1_modules/rfc5652.py:_buildOid", "pyasn1_modules/rfc5280.py:_buildOid", "pyasn1_modules/rfc4055.py:_OID"]}
{"id": "C11", "title": "Every OID constant of the package has a DER encoding that decodes to itself", "statement": "Each module-level object identifier is a valid OID (at least two arcs, first arc at most 2, second at most 39 when the first is 0 or 1) and DER encoding followed by DER decoding returns it; more generally this holds for every valid arc list.", "quantifier": "all OIDs of the package, and all valid arc lists", "why_tests_cant": "arc values are unbounded integers; the package table is large", "anchors": ["pyasn1_modules/*.py"]}
{"id": "C12", "title": "DER round trip for every type of the package", "statement": "For every type the package exports (outside an explicit exception list) and every value of it, decoding the DER encoding returns the same value up to the documented normalisation (SET OF order, empty optional fields) and consumes exactly the encoding, whatever bytes follow.", "quantifier": "all exported types, all values (any size and nesting), all trailing bytes", "why_tests_cant": "infinitely many values per type; the tests use one or two captured messages per type", "anchors": ["pyasn1_modules/*.py", "tests/*"]}
{"id": "C13", "title": "Encodings are unambiguous", "statement": "For every exported type (outside the exception list), two values with the same DER encoding are equal up to normalisation, and no encoding of a value is a proper prefix of the encoding of another.", "quantifier": "all types, all pairs of values", "why_tests_cant": "a two-value property over infinite domains", "anchors": ["pyasn1_modules/*.py"]}
{"id": "C14", "title": "Trailing bytes are returned untouched and prefixes are rejected", "statement": "Decoding b ++ rest as any exported type returns the rest unchanged when b is an encoding; decoding a proper prefix of an encoding fails.", "quantifier": "all types, values, suffixes and proper prefixes", "why_tests_cant": "all cut points of all encodings", "anchors": ["pyasn1_modules/*.py", "tools/x509dump.py"]}
{"id": "C15", "title": "Decoded values satisfy the declared constraints", "statement": "Whatever bytes are accepted for a type of the package, every primitive value inside the result satisfies the value, size and alphabet constraints declared for it, and required components are present.", "quantifier": "all byte strings, all types", "why_tests_cant": "adversarial inputs are unbounded", "anchors": ["pyasn1_modules/*.py"]}
{"id": "C16", "title": "Defaults: a field equal to its default is never encoded, and an absent defaulted field decodes to the default", "statement": "For every type with DEFAULT fields, encoding a value with such a field equal to its default gives the same bytes as leaving it out, and decoding yields the default; every declared default is itself a legal value of the field's type.", "quantifier": "all types with defaults, all values", "why_tests_cant": "interaction of defaults with arbitrary other fields", "anchors": ["pyasn1_modules/rfc5280.py:TBSCertificate", "pyasn1_modules/rfc4055.py:RSASSA_PSS_params"]}
{"id": "C17", "title": "Optional empty collections vanish", "statement": "An OPTIONAL SEQUENCE OF / SET OF / SEQUENCE field that is present but encodes to empty content is dropped by DER encoding, so it decodes as absent; this is the only information, besides SET OF order, that a round trip loses.", "quantifier": "all types with optional constructed fields, all values", "why_tests_cant": "depends on arbitrary nesting of optional and repeated components", "anchors": ["pyasn1_modules/rfc5280.py", "pyasn1_modules/rfc5652.py:SignedData"]}
{"id": "C18", "title": "SET OF encoding does not depend on element order", "statement": "For every SET OF type of the package, permuting the elements of a value does not change its DER encoding.", "quantifier": "all SET OF types, all values, all permutations", "why_tests_cant": "all permutations of unbounded lists", "anchors": ["pyasn1_modules/rfc5652.py", "pyasn1_modules/rfc5280.py:RelativeDistinguishedName"]}
{"id": "C19", "title": "CHOICE and optional-field dispatch is deterministic", "statement": "In every exported type, the alternatives of each CHOICE have pairwise disjoint leading tags, and each optional or defaulted component has leading tags disjoint from all components that may follow it up to and including the next mandatory one; so the decoder's selection by tag never picks the wrong component. The exceptions are the classes listed as defective (Package.defective), and for each cause a legal value that is lost is shown.", "quantifier": "all types of the package, all nesting levels, all inputs", "why_tests_cant": "a clash shows only for particular combinations of present and absent fields", "anchors": ["pyasn1_modules/*.py"]}
{"id": "C20", "title": "No component refers to a type that was incomplete when it was used", "statement": "pyasn1 snapshots a class when it is instantiated inside another type. In every module, whenever a type is used as a component, its components, tags and constraints are already those of its final definition: later attribute assignments in the module do not leave stale copies behind.", "quantifier": "all types of the package at every nesting depth", "why_tests_cant": "an ordering property of the whole import history, invisible to tests that do not exercise the affected field", "anchors": ["pyasn1_modules/rfc4210.py", "pyasn1_modules/rfc5652.py", "pyasn1_modules/rfc2459.py"]}
{"id": "C21", "title": "Every type can hold a value", "statement": "Every exported type has at least one value that can be constructed, encoded and decoded (its constraints are satisfiable and applicable to its kind). The exceptions are the listed classes whose constraints no value satisfies, which are shown to have no legal value at all.", "quantifier": "all types of the package", "why_tests_cant": "unusable types pass import and are noticed only when that field occurs in real data", "anchors": ["pyasn1_modules/rfc2459.py:CRLNumber", "pyasn1_modules/rfc2459.py:SkipCerts"]}
{"id": "C22", "title": "Component names and named numbers are unambiguous", "statement": "In every SEQUENCE, SET and CHOICE of the package component names are distinct, and in every INTEGER/ENUMERATED/BIT STRING the named values are distinct both by name and by number, so access by name and by position agree. (Two classes, rfc1905.VarBind and rfc2459.Name, have one component with the empty name.)", "quantifier": "all types at every depth", "why_tests_cant": "hundreds of hand-written tables", "anchors": ["pyasn1_modules/*.py"]}
{"id": "C23", "title": "Importing any set of modules in any order gives the same type maps", "statement": "The contents of every shared OID-to-type map after importing a set of modules depends only on the set (closed under imports), not on the order of import statements, and re-importing changes nothing. The exceptions are six keys for which two modules register different types; there the last import wins, which is shown by an example for each.", "quantifier": "all subsets and all orders of imports of the 130 modules", "why_tests_cant": "130! orders", "anchors": ["pyasn1_modules/*.py: *.update(...)", "pyasn1_modules/rfc5652.py:cmsAttributesMap", "pyasn1_modules/rfc5280.py:certificateExtensionsMap"]}
{"id": "C24", "title": "Importing more modules never removes or changes an existing map entry", "statement": "Once a map associates an OID with a type, importing further modules keeps that association (up to the encoding behaviour of the type). The exceptions are the same six keys as for C23.", "quantifier": "all import histories", "why_tests_cant": "a history property", "anchors": ["pyasn1_modules/*.py: *.update(...)"]}
{"id": "C25", "title": "Open type governors exist and have the right kind", "statement": "Every open type field names a sibling component of the same SEQUENCE that is mandatory or defaulted and whose type matches the keys of the map (OID or INTEGER); the field itself is ANY, an OCTET STRING, or a SET OF / SEQUENCE OF these. The exceptions are rfc2315.AttributeValueAssertion and rfc7292.BAG_TYPE, whose governor does not exist; decoding them with open types raises on every input.", "quantifier": "all open type declarations of the package", "why_tests_cant": "a misspelt governor fails only when open type decoding is requested on data with that type", "anchors": ["pyasn1_modules/rfc2315.py:AttributeValueAssertion", "pyasn1_modules/rfc5280.py:AlgorithmIdentifier"]}
{"id": "C26", "title": "Open type resolution is sound", "statement": "With decodeOpenTypes, an open field is replaced by the decoding of its content under the type the map gives for the governor's value; if the governor is not in the map the raw bytes are kept; all other fields are as in plain decoding; and re-encoding gives the original bytes whenever the open content was in canonical form.", "quantifier": "all types with open fields, all maps, all inputs", "why_tests_cant": "all inputs and all map contents", "anchors": ["pyasn1_modules/rfc5280.py:AlgorithmIdentifier", "pyasn1_modules/rfc5652.py:ContentInfo"]}
{"id": "C27", "title": "Prototype objects agree with the type maps", "statement": "Every predefined AlgorithmIdentifier / Attribute / Extension object of the package carries a value whose OID, when looked up in the map that governs that field, gives exactly the type of the object stored in the open field, in every program that has imported the object's module; five objects are exceptions and are shown to disagree, and identifiers for which two modules register different types (C24) are left out.", "quantifier": "all prototype objects of the package", "why_tests_cant": "copy-and-paste slips in hundreds of assignments", "anchors": ["pyasn1_modules/rfc7906.py:aa_keyPurpose", "pyasn1_modules/rfc4055.py", "pyasn1_modules/rfc8018.py"]}
{"id": "C28", "title": "Successor modules are wire compatible with the modules they replace", "statement": "For each pair of a superseded and a superseding module (X.509 2459/3280/5280, PKCS#7 and CMS 2315/3852/5652, OCSP 2560/6960, CRMF 2511/4211, PKCS#8 5208/5958, PKCS#10 2314/2986, PKCS#1 2437/3447/8017, attribute certificates 3281/5755, ESS 2634/5035, SNMP 1155/1902 and 1157/1905, EC keys 3279/5480, WLAN 3770/4334) and each class name they share, every octet string that the old class decodes is decoded by the new class, with the same remainder and to a value saying the same (equal leaves, unknown components absent or DEFAULT, ANY holding the old encoding). The classes for which this fails are listed, each with octets only the old class reads.", "quantifier": "all octet strings, and all legal values, of each of about 600 pairs of classes", "why_tests_cant": "it is about all inputs of the old type; differences hide in rarely used fields and constraints", "anchors": ["pyasn1_modules/rfc2459.py", "pyasn1_modules/rfc3280.py", "pyasn1_modules/rfc5280.py", "pyasn1_modules/rfc2315.py", "pyasn1_modules/rfc3852.py", "pyasn1_modules/rfc5652.py", "pyasn1_modules/rfc2560.py", "pyasn1_modules/rfc6960.py", "pyasn1_modules/rfc2511.py", "pyasn1_modules/rfc4211.py", "pyasn1_modules/rfc5208.py", "pyasn1_modules/rfc5958.py", "pyasn1_modules/rfc2314.py", "pyasn1_modules/rfc2986.py", "pyasn1_modules/rfc2437.py", "pyasn1_modules/rfc3447.py", "pyasn1_modules/rfc8017.py", "pyasn1_modules/rfc3281.py", "pyasn1_modules/rfc5755.py", "pyasn1_modules/rfc2634.py", "pyasn1_modules/rfc5035.py", "pyasn1_modules/rfc1155.py", "pyasn1_modules/rfc1902.py", "pyasn1_modules/rfc1157.py", "pyasn1_modules/rfc1905.py", "pyasn1_modules/rfc3279.py", "pyasn1_modules/rfc5480.py", "pyasn1_modules/rfc3770.py", "pyasn1_modules/rfc4334.py"]}
{"id": "C29", "title": "CMP types match the ASN.1 quoted in their docstrings", "statement": "For each CMP type whose ASN.1 definition is quoted in its docstring, the Python definition has the same component names, order, tagging, optionality and component types, except for an explicit list of deviations.", "quantifier": "all types of rfc4210.py with an ASN.1 docstring", "why_tests_cant": "the claim is about a schema, i.e. about every message", "anchors": ["pyasn1_modules/rfc4210.py"]}
{"id": "C30", "title": "SNMP PDUs and LDAP operations are distinguishable on the wire", "statement": "In the SNMPv1/v2c and LDAP message types every operation has its own tag, so a decoder that receives an encoding of one operation never returns another; where the module omits a tag (SNMPv1 Trap) or uses the wrong form (LDAP unbind) this fails.", "quantifier": "all messages", "why_tests_cant": "all pairs of messages", "anchors": ["pyasn1_modules/rfc1157.py:Pdus", "pyasn1_modules/rfc1905.py:PDUs", "pyasn1_modules/rfc2251.py:LDAPMessage"]}
{"id": "C31", "title": "Importing never raises", "statement": "Evaluating the module bodies never raises: all named numbers used as defaults exist, defaults satisfy their constraints, constraint additions are supported, named values and component names do not collide fatally, and the import graph is acyclic.", "quantifier": "all modules and import orders", "why_tests_cant": "order dependent", "anchors": ["pyasn1_modules/*.py"]}
{"id": "C32", "title": "Decoding terminates and rejects rather than misreads malformed length or tag fields", "statement": "On every byte string the decoder for every exported type either fails or returns a value and a suffix of the input strictly shorter than the input; it never reads beyond the declared length of an enclosing element.", "quantifier": "all byte strings, all types", "why_tests_cant": "adversarial inputs", "anchors": ["pyasn1_modules/*.py"]}
{"id": "C33", "title": "Named numbers are legal values of their type", "statement": "For every INTEGER or ENUMERATED class of the package, each number that has a name (except in rfc2459.TerminalType and the classes excepted in C12) satisfies the constraints declared for the class, so that it can be set, encoded and decoded; an ENUMERATED without explicit constraint accepts every integer, named or not.", "quantifier": "all INTEGER and ENUMERATED classes of all modules, all their named numbers, all integers", "why_tests_cant": "A test sets a few names of a few types; the claim covers every named number of every class and, for open enumerations, infinitely many numbers.", "anchors": ["pyasn1_modules/rfc5280.py: Version, CRLReason", "pyasn1_modules/rfc4210.py: PKIStatus", "pyasn1_modules/rfc2251.py: LDAPResult"]}
{"id": "C34", "title": "INTEGER contents are minimal except at one kind of value", "statement": "An INTEGER or ENUMERATED value is written in the fewest octets, as DER demands, if and only if it is not -2^(8m+7) for any m; the octets are then the only contents octets DER allows. For those values one octet too many is written, and the result is not the DER encoding of any value.", "quantifier": "all integers, all INTEGER types with one primitive tag", "why_tests_cant": "infinitely many integers; the wrong ones are -128, -32768, -8388608, ...", "anchors": ["pyasn1_modules/*.py: every INTEGER and ENUMERATED component", "tools/*dump.py: the re-encoding check"]}
{"id": "C35", "title": "What is written is DER", "statement": "For every exported type (outside explicit exception lists) and every legal value, the octets written are the encoding that X.690 prescribes for the value without the empty collections in its OPTIONAL components: identifier and length octets, contents, order of SET components and of SET OF elements, omission of defaults. Exceptions are primitive values named in the statement (integers of C34, named bits with trailing zeros, times not in DER form, characters outside the BMP in BMPString) and 17 classes around SecurityCategory, in which an ANY with a context tag is written as a primitive element; no value of SecurityCategory is ever written in DER.", "quantifier": "all exported types, all legal values", "why_tests_cant": "The round trip cannot show it: an encoder and a decoder that share a mistake agree with each other. Interoperability is a statement about all values against the standard.", "anchors": ["pyasn1_modules/*.py", "pyasn1_modules/rfc2634.py: SecurityCategory", "pyasn1_modules/rfc5755.py: SecurityCategory"]}
{"id": "C36", "title": "DER made elsewhere is read as the value it encodes", "statement": "For every exported type (outside the exception list of C12) and every legal value, every octet string that X.690 allows as DER encoding of the value, whoever made it, decodes to that value, up to the order of SET OF elements, and what follows is left alone. Empty collections in OPTIONAL components and the integers of C34 are included.", "quantifier": "all exported types, all legal values, all their DER encodings, all trailing octets", "why_tests_cant": "messages come from other implementations; the tests hold a few of them per type", "anchors": ["pyasn1_modules/*.py", "tests/*"]}
{"id": "C37", "title": "The DER encoding is unique and survives decoding and encoding again", "statement": "For every exported type outside the exception lists and every legal value without empty OPTIONAL collections and without the primitive values excluded in C35: octets are written for it if and only if they are its DER encoding, so there is exactly one, and DER made elsewhere that is decoded and encoded again comes out unchanged (a signature over it remains valid).", "quantifier": "all exported types, all such values, all octet strings", "why_tests_cant": "a tool that re-encodes a signed part must reproduce every octet, for every message", "anchors": ["tools/x509dump.py: re-encoding check", "pyasn1_modules/rfc5280.py: Certificate", "pyasn1_modules/rfc5652.py: SignedData"]}
{"id": "C38", "title": "Nothing is accepted that is not an encoding of the value returned", "statement": "Whatever exported class is asked for and whatever octets are given: if the decoder returns a value and a remainder, the octets it consumed are a BER encoding of exactly that value with definite lengths (identifier, length, tags, contents, components in order with only OPTIONAL and DEFAULT ones missing, checked constraints met), up to an explicit list of tolerated deviations (a component of a SET given more than once: the last counts); BOOLEANs other than 00 and FF and indefinite lengths are refused.", "quantifier": "all exported classes and any other type whose SETs have distinguishable components, all octet strings", "why_tests_cant": "the octets come from the network; acceptance of octets that mean something else is a security problem and cannot be sampled", "anchors": ["tools/*.py: decoder.decode(substrate, asn1Spec=...)", "pyasn1_modules/*.py"]}
{"id": "C39", "title": "Every BER encoding with definite lengths is read, with one meaning", "statement": "For every exported type (outside the exception list of C12), octets that are a BER encoding of a value with definite lengths and primitive strings (long forms of lengths, components equal to their DEFAULT written out, SET components in any order, arbitrary padding bits) are read as that value and the rest is left alone; hence octets have at most one reading. For types without tagged ANY inside (1520 of 1832) accepted and specified coincide exactly.", "quantifier": "all exported types, all values, all such encodings, all trailing octets", "why_tests_cant": "messages are made by other encoders that do not follow DER; there are infinitely many encodings of one value", "anchors": ["pyasn1_modules/rfc5280.py: Extension (critical DEFAULT FALSE)", "pyasn1_modules/*.py"]}
{"id": "C40", "title": "Tagging replaces or wraps, and changes nothing else", "statement": "For every class X and tag t: the encoding of a value by X().subtype(implicitTag=t) is the encoding by X() with its identifier octets replaced by those of t (primitive or constructed as before) and all other octets the same; the encoding by X().subtype(explicitTag=t) is exactly a constructed element with tag t around the encoding by X(); on an untagged CHOICE implicitTag means the same as explicitTag.", "quantifier": "all classes that can be built with the modelled pyasn1 calls, all tags, all values", "why_tests_cant": "hundreds of tagged components, each with its own value set; a test shows one value of some of them", "anchors": ["pyasn1_modules/*.py: .subtype(implicitTag=...), .subtype(explicitTag=...)"]}
{"id": "C41", "title": "snmpget sends the request it was asked for", "statement": "For all arguments, the datagram tools/snmpget.py sends decodes, whatever follows it, as an SNMPv1 message with the community given and a GetRequest for exactly the object identifier given (request-id 123, no error, a NULL value); it sends one if and only if the community is ISO-8859-1 text and the object identifier can be encoded; different arguments give different datagrams; a reply of more than 2048 octets is refused and never misread; a shorter one is shown as it was sent, in whatever form of BER (indefinite lengths, strings in pieces), and nothing is shown but what the datagram says.", "quantifier": "all community strings, all object identifier texts made of digits and dots, all reply datagrams", "why_tests_cant": "the arguments and the replies are unbounded; a test sends one", "anchors": ["tools/snmpget.py", "pyasn1_modules/rfc1157.py: Message, Pdus, VarBind"]}
{"id": "C42", "title": "ocspclient asks about the right certificate and reports the first answer", "statement": "For every hash function and every standard input, what tools/ocspclient.py posts is one request, for the second certificate on standard input, identified by its serial number and the hashes of its issuer's name and key; it posts nothing if the first certificate's subject is not the second one's issuer; two certificates in PEM form with any text around them are enough. It reports on an answer exactly if that is successful and carries a basic response with at least one entry, and what it reports is that first entry. (Findings: with the pyasn1 versions setup.py asks for, hashing the key raises, so nothing is ever posted; the entry reported is not compared with the certificate asked about.)", "quantifier": "all standard inputs, all hash functions, all HTTP response bodies", "why_tests_cant": "certificates, surrounding text and responses are unbounded; no test of the repository runs the script", "anchors": ["tools/ocspclient.py: mkOcspRequest, parseOcspResponse, ValueOnlyBitStringEncoder", "pyasn1_modules/rfc2560.py", "pyasn1_modules/rfc2459.py: Certificate", "pyasn1_modules/pem.py: readPemBlocksFromFile"]}
{"id": "C43", "title": "Signed parts can be recovered from the decoded message", "statement": "Let a message start with the DER encodings of its leading components (what a signature, MAC or proof of possession was computed over), under any BER header and followed by anything. If the message is decoded, encoding the decoded components again gives exactly these octets. This holds for every SEQUENCE class of the package; in particular for tbsCertificate, tbsCertList, certificationRequestInfo, tbsRequest, tbsResponseData, acinfo, certReq, for a ProtectedPart made of the decoded header and body of a PKIMessage, and for the signed attributes of a SignerInfo encoded under the tag of SET OF instead of [0]. (It does not hold for parts that were not DER.)", "quantifier": "all messages, all signed parts, all headers and all octets after the signed part", "why_tests_cant": "certificates and messages are unbounded and the octets around the signed part are chosen by others; the tests re-encode a few samples as a whole", "anchors": ["pyasn1_modules/rfc5280.py: Certificate, CertificateList", "pyasn1_modules/rfc2986.py: CertificationRequest", "pyasn1_modules/rfc6960.py: BasicOCSPResponse, OCSPRequest", "pyasn1_modules/rfc5652.py: SignerInfo, SignedAttributes", "pyasn1_modules/rfc4210.py: PKIMessage, ProtectedPart", "pyasn1_modules/rfc5755.py: AttributeCertificate", "pyasn1_modules/rfc4211.py: CertReqMsg"]}
{"id": "C44", "title": "LDAP filters: two operators deep and no further", "statement": "Every BER encoding of an LDAP search filter with at most two operators (and, or, not) on each path is decoded to the value that stands for it; every encoding of a filter with three operators on some path is refused, also inside a SearchRequest and an LDAPMessage; every decoded value stands for a filter with at most two operators on each path.", "quantifier": "all filters of RFC 2251 of any depth and width, all their BER encodings, all octets", "why_tests_cant": "filters are a recursive data type; a test tries a few", "anchors": ["pyasn1_modules/rfc2251.py: Filter, Filter2, Filter3, SearchRequest, LDAPMessage"]}
{"id": "C45", "title": "Nested CMP messages can be unpacked to any depth", "statement": "A PKIMessage whose body carries other encoded PKIMessages (RFC 4210, 5.1.3.4), nested to any depth, is decoded to a value that holds the octets of each inner message unchanged, and decoding these again gives the inner messages. What is encoded as PKIMessages is decoded as NestedMessageContent into the octets of the messages. (Finding: the assignments at the end of the module that should make the body decode the inner messages have no effect.)", "quantifier": "all trees of messages, all headers and bodies, all BER element strings", "why_tests_cant": "nesting depth and width are unbounded; no test nests messages", "anchors": ["pyasn1_modules/rfc4210.py: NestedMessageContent, nestedMessageContent, PKIMessages, PKIMessage, PKIBody"]}
{"id": "C46", "title": "What a further constraint does to a class", "statement": "X().subtype(subtypeSpec=c) takes exactly the values of X that meet c, for every constraint c and every class X whose own constraint is an intersection and that has no sizeSpec (1368 classes). For the others: the constraint is ignored if X is a CHOICE or has a sizeSpec (320 classes), TypeError is raised if X's own constraint is a single size or range (127 classes), and values are added instead of removed if it is a list of values or a union (17 classes).", "quantifier": "all classes of the package, all constraints, all values", "why_tests_cant": "constraints form a recursive language, and values are unbounded", "anchors": ["pyasn1_modules/rfc5280.py: GeneralNames, BaseDistance, CertificateSerialNumber", "pyasn1_modules/rfc6031.py: Encoding", "pyasn1_modules/rfc*.py: subtypeSpec, sizeSpec, subtype(subtypeSpec=...)"]}
{"id": "C47", "title": "Untagged types carry the tag X.680 assigns", "statement": "Every type in the package that is not tagged, at any depth inside any class, is encoded with the first octet that X.680 and X.690 prescribe for that type (BOOLEAN 01, INTEGER 02, ..., SEQUENCE 30, SET 31), for every value; every type other than ANY and CHOICE has a tag, and universal tags occur nowhere but innermost.", "quantifier": "all classes of the package, all types inside them, all values", "why_tests_cant": "a test looks at the octets of the samples it has", "anchors": ["pyasn1_modules/rfc*.py: componentType, tagSet"]}
{"id": "C48", "title": "The tools for single objects show what they were given", "statement": "crmfdump, ocspreqdump, ocsprspdump and cmpdump print every legal value of their class, given in base64 with any other characters in between, and end normally exactly if nothing follows it; pkcs7dump prints the message and its contents for the six content types of RFC 2315 and ends normally on nothing else.", "quantifier": "all standard inputs, all values of the classes", "why_tests_cant": "unbounded texts and values; which inputs end normally is a statement about all of them", "anchors": ["tools/crmfdump.py", "tools/ocspreqdump.py", "tools/ocsprspdump.py", "tools/cmpdump.py", "tools/pkcs7dump.py"]}
{"id": "C49", "title": "cmcdump shows all layers of a CMC request, and when it does not end", "statement": "cmcdump ends normally exactly on a CMC request wrapped in any number of content infos and signed data, and prints all layers; it runs for ever exactly when some layer has a content type other than the three it knows; otherwise it raises.", "quantifier": "all standard inputs, any nesting depth", "why_tests_cant": "non-termination and nesting depth cannot be tested", "anchors": ["tools/cmcdump.py"]}
{"id": "C50", "title": "The classes are the types of the standards they implement", "statement": "For the modules set beside their standard's ASN.1, each class has exactly the legal values of the type the standard defines, writes the DER encoding X.690 prescribes for each of them, and reads any octets as that type would; or it is on the list of deviations, where it is stated what it does instead: accepts more (and handles every value of the standard in the same way), reads every encoding of the standard but may write others, or refuses or misreads a given legal encoding. Component names and named numbers are those of the standard, with listed exceptions. No class of such a module is left out.", "quantifier": "all classes of the modules with a transcribed standard; all values, all octet strings, any nesting and length", "why_tests_cant": "agreement of two types means agreement on infinitely many values and octet strings; tests decode a few messages per module", "anchors": ["pyasn1_modules/rfc*.py"]}
{"id": "C51", "title": "Constants have the values the standards assign", "statement": "Object identifiers, bounds, algorithm identifiers and other constants of the modules set beside their standard have a legal value and encode to the encoding of the value the standard assigns to the name; those on a list of exceptions encode otherwise or not at all. Constants for which the standard has no counterpart are listed.", "quantifier": "all module-level constants of the modules with a transcribed standard", "why_tests_cant": "a wrong arc in an identifier shows only against a peer; tests use a few identifiers", "anchors": ["pyasn1_modules/rfc*.py"]}
{"id": "C52", "title": "Identifiers lead to the types the standards associate with them", "statement": "Whatever modules are imported and in whatever order, the type that the shared dictionaries (algorithms, attributes, extensions, content types, bag types and so on) give for an identifier is the type a standard associates with that identifier: with the same values, encodings and readings, or related as listed. Every object of a standard not listed as missing is found once the module of that standard is imported, and the type found reads whatever the standard's type reads, to the same value. The objects listed as missing are found in no program.", "quantifier": "all import histories, all identifiers, all object classes of the standards; all values and octet strings", "why_tests_cant": "the dictionaries are filled by whichever modules were imported before, and agreement of two types concerns infinitely many values", "anchors": ["pyasn1_modules/rfc*.py: certificateAttributesMap, certificateExtensionsMap, algorithmIdentifierMap, cmsAttributesMap, cmsContentTypesMap, smimeCapabilityMap, otherRecipientInfoMap and the like"]}
{"id": "C53", "title": "The outcome of reading a block is determined by the lines of the file, for every file", "statement": "Whatever text a file holds and whatever the marker pairs, exactly one of three things happens: no line is a start marker, and readPemBlocksFromFile returns (-1, '') at the end of the file; the first start marker line belongs to pair i, no later line is the stop marker of i, and it returns (i, '') at the end of the file; or the block ends, and it returns i and the octets that the base64 text of the lines in between stands for, line by line, or raises if some line is not base64 in itself; the file is then positioned right after the stop line. Lines are compared without the white space (Unicode white space included) around them; a last line without newline counts.", "quantifier": "all texts, all marker tuples", "why_tests_cant": "there is no bound on the text, its line ends and the markers; tests read a handful of well-formed files", "anchors": ["pyasn1_modules/pem.py: readPemBlocksFromFile"]}
{"id": "C54", "title": "Every class is exactly one ASN.1 type, written down beside its standard", "statement": "For every class of the package, including those that differ from the standard they implement and those no standard defines, an ASN.1 type is given (the standard's, with an explicit list of changed or added definitions), and the class has exactly the legal values of that type, writes every value in the same octets, reads or refuses every octet string in the same way, and its components, named numbers and named bits have the names given there.", "quantifier": "all classes of all 130 modules, all values, all octet strings", "why_tests_cant": "a test decodes one capture with a class; which other values and octets the class accepts, and what it writes for them, is settled only for all of them together", "anchors": ["pyasn1_modules/rfc*.py: every class"]}
{"id": "C55", "title": "Open type fields are decoded as the standards' objects say", "statement": "Every open type field of a class is one of its standard, with the standard's governor and object class, except five listed declarations; and with decodeOpenTypes, once the module of a standard has been imported, if the governor holds the identifier of one of the standard's objects (outside the listed deviations of C52), then in place of every octet string in the field that encodes a value of the object's type stands that value, with its own open type fields resolved. One exception is shown to break decoding: an encrypted PKCS #7 content of type data is refused unless the ciphertext looks like an OCTET STRING.", "quantifier": "all 127 open type fields, all import histories, all objects listed, all octet strings", "why_tests_cant": "the outcome depends on which modules have been imported and on the octets; tests import one module and decode one message", "anchors": ["pyasn1_modules/rfc*.py: openType=opentype.OpenType(...)"]}
{"id": "C56", "title": "The caller's openTypes dictionary", "statement": "decode(..., openTypes=d) returns what the plain decoder returns, with the same unused octets, except that every open type field at any depth whose governor is a key of d holds the decoding of its octets under d's type, and every other one whose governor is in its class's dictionary the decoding under that type; a non-empty d acts the same with and without decodeOpenTypes=True, an empty one as if it were not given; it succeeds whenever the plain decoder does and the contents so resolved can be decoded. Passing a copy of the one dictionary a class uses changes nothing when that dictionary's types use no other; and any two dictionaries of the package agree on common keys except for 19 listed ones, so that copies of others do not change how a field is resolved that was resolved before. Because of those exceptions, the recipe in rfc6664.py (pass a copy of smimeCapabilityMap) works for a capability but makes every AlgorithmIdentifier of an RSA key be refused. With any dictionary of classes of the package, octets that follow are left untouched, messages on a stream come out the same in whatever pieces they arrive, and what is returned is at most ten times the size of what was read.", "quantifier": "all dictionaries d with distinct keys, all classes, all import histories, all octet strings", "why_tests_cant": "tests pass a few dictionaries with a few messages; which fields a dictionary captures depends on all identifiers of all dictionaries and on the nesting of the message", "anchors": ["tests/test_rfc*.py: openTypes=", "pyasn1_modules/rfc6664.py: comment at lines 124-132", "pyasn1_modules/rfc*.py: openType=opentype.OpenType(...)"]}
{"id": "C57", "title": "DER with open types comes back unchanged", "statement": "A message in DER whose open type fields, at any depth, hold DER encodings of values of the types registered for their governors is accepted by decode(..., decodeOpenTypes=True), and encoding what was decoded gives the same octets: a signature over it stays valid. Exceptions: the messages C37 leaves out, now at every depth (empty collections in OPTIONAL components, which includes RSASSA-PSS parameters that are all default; the values pyasn1 does not write in DER); the classes C12, C25 and C35 leave out and the seven objects whose types are among them; and a subject key identifier in rfc2459.Extension, whose OCTET STRING is lost.", "quantifier": "all messages of all classes, all nestings of open types, all import histories", "why_tests_cant": "tests round-trip a few messages; whether octets survive depends on every combination of field, registered type and contents, nested without bound", "anchors": ["tests/test_rfc*.py: decodeOpenTypes=True followed by der_encoder(...)", "pyasn1_modules/rfc*.py: openType=opentype.OpenType(...)", "pyasn1_modules/rfc2459.py: Extension"]}
{"id": "C58", "title": "omitEmptyOptionals=False loses nothing", "statement": "With encode(..., omitEmptyOptionals=False) every legal value of every class encodes, and decodes to the same value up to the order in SET OFs: empty collections in OPTIONAL components, which the encoder drops by default (C17), are kept. What is written is the DER encoding of the value (the values C34-C36 name aside), and DER made elsewhere is decoded and written again without a change, with decodeOpenTypes=True as well and at any depth of open types. On values without empty collections in OPTIONAL components the option changes nothing. Exceptions: UnformattedPostalAddress of rfc2459, rfc3280 and rfc5280, a SET, where an empty list of lines is lost even with the option; the four classes of C12's exceptions with components that cannot be told apart; C35's classes; and, as contents of open types, the seven objects whose types are among these and rfc2459's subject key identifier.", "quantifier": "all legal values and all DER messages of all classes, all nestings of open types, all import histories", "why_tests_cant": "one test uses the option, on one message; whether anything is lost depends on every combination of OPTIONAL, SET, CHOICE and open types, nested without bound", "anchors": ["tests/test_rfc2315.py: der_encoder(asn1Object, omitEmptyOptionals=False)", "pyasn1_modules/rfc*.py: OptionalNamedType(...)", "pyasn1_modules/rfc5280.py: UnformattedPostalAddress"]}
{"id": "C59", "title": "Looking at an object does not change what it stands for", "statement": "An object that can be encoded keeps its encoding and its value however often it, or a part of it that has a value, is encoded, and whichever of its components are read: alternatives that are chosen, elements that are there, components of a SEQUENCE or SET, OPTIONAL ones that are not there included, as long as no SEQUENCE of optional components only is entered that was not there. None of these operations raises. In particular encoding twice gives the same octets. Exception: CMSAlgorithmProtection of rfc6211, an object of which can be encoded once only. Not harmless: reading an alternative of a CHOICE that is not chosen loses what was there; reading the element after the last one of a list adds one.", "quantifier": "all objects of all classes, in any state of construction in which they can be encoded; all finite sequences of such operations", "why_tests_cant": "reading changes the object (components are created on access), and whether it changes the encoding depends on the nesting of OPTIONAL, DEFAULT, CHOICE, on constraints over present components, and on the history of accesses", "anchors": ["pyasn1_modules/rfc6211.py: CMSAlgorithmProtection", "pyasn1_modules/rfc*.py: OptionalNamedType, DefaultedNamedType", "tools/ocspclient.py: mkOcspRequest"]}
{"id": "C60", "title": "Objects built step by step", "statement": "Whatever sequence of reads, assignments and encodings has been applied to a new object of a class, including ones that raised: encode writes the encoding of the value the object holds, or raises if it holds none or one that cannot be encoded; what it writes decodes, whatever follows it, to that value up to the order in SET OFs, provided octets assigned to an untagged ANY are one element. Every legal value can be built, from an object in any state, by assigning scalars and emptying collections, and then has the encoding of C12. After an assignment the object assigned is found in its place and what is in other components is found unchanged. The objects snmpget and ocspclient build hold the messages of C41 and C42. Exceptions: seven classes with a constraint on which OPTIONAL components there are, and C12's defective classes. An OPTIONAL component that is incomplete is left out without notice.", "quantifier": "all finite sequences of operations on objects of all classes, all paths, all assigned objects, all legal values, all states", "why_tests_cant": "the state of an object depends on the whole history of accesses; tests build a few objects in one order each", "anchors": ["tools/snmpget.py: msg.setComponentByPosition", "tools/ocspclient.py: mkOcspRequest", "pyasn1_modules/rfc3739.py: SemanticsInformation", "pyasn1_modules/rfc*.py: module-level item assignments"]}
{"id": "C61", "title": "Importing from several threads", "statement": "Any number of threads may import modules of the package, each any modules in any order, at the same time. Nothing raises, there is no deadlock, and all threads come to their end under every schedule. Once a thread has imported a module, everything the module and its imports register is in place for it, whatever other threads are doing; no registry ever holds an entry that no module in question registers; entries once there stay, with their type. In the end the registries are those of a program without threads that imports the same modules in any order. Exception: the object identifiers two modules register with different types (C24) may get a combination of types that no order without threads gives.", "quantifier": "all numbers of threads, all import programs, all schedules, all moments in them", "why_tests_cant": "the number of schedules is astronomical and a test exercises whichever one the interpreter happens to choose", "anchors": ["pyasn1_modules/rfc*.py: import statements and module-level Map.update(...)", "pyasn1_modules/rfc3770.py: certificateExtensionsMap, certificateAttributesMap", "pyasn1_modules/rfc4334.py: certificateExtensionsMap, certificateAttributesMap"]}
{"id": "C62", "title": "Decoding open types before, during and after further imports", "statement": "Decoding a message with decodeOpenTypes=True after importing further modules gives the same result as before, except that open type fields that were left as octets may now be decoded, to what those octets mean for the type registered; a message whose open type fields were all decoded gives exactly the same result; and a message that can be decoded after the imports could be decoded before. The same holds for a decoder that runs while other threads import modules, under every schedule: its result is what the plain decoder returns with some open fields decoded, it lies between the results for the registries at the beginning and at the end, it raises nothing if decoding at the end would not, and it is determined if all open fields can be decoded at the beginning. (Where two modules register different types for one object identifier, C24, the type must not change meanwhile.) Exceptions: importing can make decoding fail; and a decoder that runs meanwhile may decode one of two equal fields and not the other.", "quantifier": "all registry states reached by imports, all schedules of importing threads, all moments between which the decoder runs, all classes, all octet strings", "why_tests_cant": "a test sees one registry state per process and one schedule; the claim relates all pairs of states and all interleavings for all messages", "anchors": ["pyasn1_modules/rfc*.py: module-level Map.update(...) and openType arguments", "pyasn1_modules/rfc5280.py: algorithmIdentifierMap, AlgorithmIdentifier", "pyasn1_modules/rfc4055.py: _algorithmIdentifierMapUpdate", "pyasn1_modules/rfc4357.py: _algorithmIdentifierMapUpdate"]}
{"id": "C63", "title": "Objects of other classes as components", "statement": "x[name] = y and x.append(y) accept an object y of another class than the component's exactly if the tags of the component's type are the first of y's and its constraint is absent, y's own, or part of it (open type fields accept everything). What is assigned is found there afterwards, with the class it had. If a SEQUENCE or SET of the package is assembled by any sequence of assignments of objects of whatever classes, and the objects assigned last stand for values of the components' types (same kind, tags and shape with constraints at least as strict; an alternative's object for an untagged CHOICE; any object, for its octets, in an ANY or open type field), then whenever encode does not raise, decode with the class reads the octets as exactly these values, leaving what follows. Objects of a class of a superseded module are accepted where its compatible successor is expected, but for eleven pairs, and their octets are read by the successor. Exceptions: X is refused by components of type X().subtype(implicitTag=t) or (explicitTag=t); a class narrowed twice is refused where the class narrowed once is expected; classes with equal tags and different components are accepted and encoded, though nothing reads the octets (77 of the 78 incompatible successors); an object in an OPTIONAL open type field that encodes to nothing vanishes.", "quantifier": "all classes of the package and all classes derived from them, all objects assembled of objects of any classes, all sequences of assignments, all values", "why_tests_cant": "tests assemble a few messages from the classes meant for each other; the claim is about every combination of classes, values and orders of assignment", "anchors": ["pyasn1_modules/rfc*.py: componentType of all classes", "tools/ocspclient.py: mkOcspRequest", "tools/snmpget.py", "pyasn1_modules/rfc2459.py, rfc3280.py, rfc5280.py: Name, CRLNumber, SkipCerts", "pyasn1_modules/rfc4055.py: RSASSA_PSS_params"]}
{"id": "C64", "title": "The same octets under every interpreter", "statement": "Python 2 running the readers on the bytes of a UTF-8 file, and Python 3 running them on the file opened in text mode, give the same marker index, the same octets (or both raise) and leave the same part of the file unread, for every file in which a carriage return comes only before a line feed or at the end and which has no white space beyond ASCII's, and for all markers. The whole-text base64 helpers agree on every text, whatever its line ends and blanks; the two base64 decoders agree on every byte string. A certificate file in lines of a multiple of four characters with either line end is read back under Python 2. Exceptions: a file without line feeds gives Python 2 nothing; a no-break space beside a marker is removed by Python 3 only; a file opened in binary mode under Python 3 never gives octets: with text markers (the default) no block is found and no exception is raised, with byte string markers any block with a line in it raises.", "quantifier": "all texts and byte strings of any length, all lists of markers, both branches of sys.version_info, text and binary mode", "why_tests_cant": "The two branches use different string types, different white space and a different base64 algorithm; agreement has to hold for every file, and one test run only executes one branch.", "anchors": ["pyasn1_modules/pem.py:readPemBlocksFromFile", "pyasn1_modules/pem.py:readPemFromFile", "pyasn1_modules/pem.py:readBase64fromText", "pyasn1_modules/pem.py:readBase64FromFile"]}
{"id": "C65", "title": "Decoded values are not much larger than the input", "statement": "decode, with or without open types decoded and whatever modules are imported, returns a value whose size (one for each object and each empty slot, and one for each octet of contents) is at most ten times the number of octets it consumed, for every class of the package and every input; ten is the least such factor. Without open types a decoded value is nested at most 22 deep, whatever the input. Both hold for the BER decoder too, however strings are cut into pieces and lengths left indefinite. With open types there is no such limit: once rfc4055 is imported, an AlgorithmIdentifier of at most 17 n + 13 octets can be nested more than n deep, n up to a hundred million.", "quantifier": "all classes of the package, all octet strings, all import histories; for the last part all n up to 10^8", "why_tests_cant": "A bound on memory matters for the worst input, which no sample contains; the classes, the open types within open types and the registered types are unlimited in combination.", "anchors": ["pyasn1_modules/*.py: every class", "pyasn1_modules/rfc4055.py: id_mgf1, _algorithmIdentifierMapUpdate", "pyasn1_modules/rfc5275.py: GLKeyAttributes", "pyasn1_modules/rfc6402.py: PKIData"]}
{"id": "C66", "title": "Objects are changed only through what leads to them", "statement": "Assigning stores the object itself, not a copy. Whatever a program does by making, decoding, copying, reading, assigning, clearing and encoding, an object that has no part in common with the objects the program holds looks the same afterwards and is encoded to the same octets; simple objects never change. What decode returns, what a constructor returns and a deep copy have no part in common with anything that existed before. Conversely an object that is a component in several places looks the same in all of them, and a change made through one is seen in the others (the predefined mgf1 identifiers of rfc4055 hold the sha identifiers themselves). If there is one way to the part that is assigned to, the change is seen in that place only. Objects can be encoded unless an object was assigned to a component of one of its own parts, which the type check allows (AlgorithmIdentifier as its own parameters).", "quantifier": "all states of memory, all sequences of operations of any length, all sets of objects held, all classes and values", "why_tests_cant": "A test shows one program and one arrangement of shared objects; that nothing else can be affected is a statement about all programs and all ways objects can be connected.", "anchors": ["pyasn1_modules/rfc4055.py: sha1Identifier, mgf1SHA1Identifier (lines 62-100)", "pyasn1_modules/rfc5280.py: AlgorithmIdentifier", "pyasn1_modules/rfc3560.py", "pyasn1_modules/rfc8017.py", "tools/ocspclient.py: lines 77-96", "tools/snmpget.py: lines 23-36"]}
{"id": "C67", "title": "Reading and writing again: how much longer, and DER is shortest", "statement": "Octets that were decoded as a value and are encoded again become at most half as long again if the class has no tagged ANY inside, and at most twice as long for every class; both bounds count only the octets that were consumed. Growth by half comes only from INTEGER and ENUMERATED: contents that were empty, and the integers -128, -32768, ... for which the encoder writes an octet too many; growth by two only from a tagged ANY that held another element. Otherwise no BER encoding with definite lengths of a value, however it is written, is shorter than what the encoder writes.", "quantifier": "all exported classes, all octet strings that are accepted, all values and all their BER encodings, of any size", "why_tests_cant": "A test re-encodes the samples, which are DER already; the bound is about every encoding a peer may choose, of every value of every class.", "anchors": ["pyasn1_modules/rfc5280.py: CertificateSerialNumber, AnotherName (all classes)", "tests/test_rfc5280.py: der_encoder(asn1Object) == substrate"]}
{"id": "C68", "title": "Times with fractions of a second", "statement": "For every class: a value whose times have any text (at most one '.') is encoded exactly if each time ends in Z, has no offset or comma and, as written, 11 to 13 (UTCTime) or 13 to 19 (GeneralizedTime) characters. What is written for a time is its text without the zeros among the first four characters of the fraction, and decoding gives back the value with its times so rewritten. It gives back the value itself exactly if no time has such a zero and none has an empty fraction; octets that were decoded are written again only in that case. The instant written is never earlier than the one in the value, and it is the same exactly if no zero among the first four digits has a digit other than zero after it.", "quantifier": "all exported classes, all values legal but for the text of their times, all fractions of any length", "why_tests_cant": "The samples in the tests have times without fractions; which times survive depends on every digit of every fraction, at any depth of any class.", "anchors": ["pyasn1_modules/rfc3161.py: TSTInfo", "pyasn1_modules/rfc5280.py: Time, Validity (all classes with UTCTime or GeneralizedTime)", "tests/test_rfc3161.py: der_encoder(asn1Object) == substrate"]}
{"id": "C69", "title": "The BER codec", "statement": "For every class: a legal value (times with any text) can be encoded with pyasn1's BER encoder, and its BER decoder gives back exactly that value, SET OF in the same order, empty optional collections kept, times as written, whatever octets follow. The BER decoder accepts every BER encoding of a value in the sense of X.690, with definite or indefinite lengths, OCTET STRINGs and BIT STRINGs in pieces, SETs in any order, DEFAULT values present or not, any octet but 0 for TRUE, and what it accepts is such an encoding of the value it returns; an encoding has one reading, a proper prefix is refused. What the DER decoder reads the BER decoder reads as the same value. The two encoders write the same octets for every value of 1043 of the 1832 classes; TRUE written in BER is refused by the DER decoder, and what contains no TRUE is read by it. What is decoded obeys the constraints of its type. Decoding any BER encoding of a value and encoding the result in DER gives the same octets, whichever it was, and doing so again changes nothing.", "quantifier": "all exported classes, all legal values, all octet strings", "why_tests_cant": "No test uses the BER codec; the forms an agent may choose for lengths and strings nest without bound, and exact round trips concern every value of every class.", "anchors": ["tools/snmpget.py: encoder.encode, decoder.decode (pyasn1.codec.ber)", "pyasn1_modules/rfc1157.py: Message", "pyasn1_modules/rfc*.py: all classes"]}
{"id": "C70", "title": "Changing one place in a message changes its octets, and the lengths around it", "statement": "Take two legal values of an exported type that are the same but for one place at any depth: a component that is replaced, set, deleted or given its default value, an element that is replaced, added or removed, or something inside one of these. Their encodings are the same but for the octets of that place, which are what the value there encodes to by itself (none if nothing is there), and the lengths of the elements around it. In a SET or SET OF the place may move among the other elements, which stay the same and in the same order; elsewhere everything after the place is unchanged, and if as many octets are put there as there were, no other octet changes. In particular DER received from elsewhere that is decoded, changed in one place and encoded again differs from what was received only in this way.", "quantifier": "all exported types (outside the exception list of C12), all pairs of legal values without empty OPTIONAL collections that differ in one place; for places of simple type, all types and all values", "why_tests_cant": "It relates the encodings of all pairs of values at all places at all depths; a test compares a few.", "anchors": ["pyasn1_modules/rfc5280.py: Certificate, Extension, Validity", "pyasn1_modules/rfc5652.py: SignedData, SignerInfo", "all other classes of pyasn1_modules/rfc*.py"]}
{"id": "C71", "title": "Types looked up in the shared dictionaries can be used to decode by hand", "statement": "After any sequence of imports, take an object found in one of the shared dictionaries (certificateExtensionsMap[extn['extnID']] and the like) and use it as asn1Spec. What it accepts is BER of the value it returns; a legal value of it survives encoding and decoding; DER made elsewhere is decoded completely and encodes to the same octets. Consequently the usual loop works: decode a DER message, go through its extensions (or attributes, names, content, controls, bags), look each identifier up, decode the contents with the object found: every identifier and contents met are ones the sender put there together, decoding leaves nothing over, and encoding gives the contents again.", "quantifier": "all sequences of imports, all dictionaries and registered identifiers (two for the round trip and seven for DER excepted, whose types are ambiguous or write primitive ANY contents), all legal values and all octet strings; for the loop all messages of 23 kinds, with any number of parts in any order, and any dictionary", "why_tests_cant": "The tests run this loop over one or two messages per standard; messages, parts, registered types and the order of imports are unbounded, and many registered objects occur in no test", "anchors": ["pyasn1_modules/rfc5280.py:certificateExtensionsMap", "pyasn1_modules/rfc5652.py:cmsAttributesMap", "pyasn1_modules/rfc5652.py:cmsContentTypesMap", "pyasn1_modules/rfc6960.py:ocspResponseMap", "pyasn1_modules/rfc7292.py:pkcs12BagTypeMap"]}
{"id": "C72", "title": "Messages are read from a stream, whatever pieces it comes in", "statement": "A program receives octets in pieces, appends each to a buffer and calls decode(buffer, asn1Spec=...) until it fails, delivering each message and keeping the rest. What it has delivered and what it keeps depends only on the octets received so far, not on the pieces. If these octets are complete messages followed by nothing or by the beginning of another, exactly these messages have been delivered, in order and once, and the beginning is kept; legal values sent with encode arrive as these values. A delivered message is never changed by what arrives later. A complete message that is not of the expected type stops the stream.", "quantifier": "all types (for encode: all classes of the package but the defective ones), all numbers of messages and pieces, all octets and ways to cut them, both codecs and decoding with open types after any imports", "why_tests_cant": "The tests decode one complete message in one piece; messages, pieces and the places where they are cut are unbounded", "anchors": ["pyasn1_modules/rfc2251.py:LDAPMessage", "pyasn1_modules/rfc1157.py:Message", "pyasn1_modules/rfc5280.py:Certificate", "tests/test_rfc2511.py:CertificateReqTestCase"]}
{"id": "C73", "title": "One kind of object is not taken for another", "statement": "Take the kinds of objects found in files, on connections and inside CMS messages: certificates, revocation lists, requests, keys, PKCS#12, OCSP, time stamps, CMP, CMC, SNMP, LDAP, CMS contents (62 classes). Octets that decode accepts with one of these classes it refuses with every other, with or without open types, except for 26 pairs, each of which has octets both accept (for instance EC private keys and SNMPv2c messages, or the lists, which all accept an empty one). Therefore a program that tries classes one after the other, as long as no two of them are such a pair, finds the class an object was encoded with and reads it as what it was, and the order of trying makes no difference for any input. The same holds for the BER decoder, with the same exceptions: every BER encoding of a value, with indefinite lengths or strings in pieces, is recognised as its class and read as that value; and what is recognised from DER is recognised as the same with the BER decoder.", "quantifier": "all octet strings, all pairs of the 62 classes, all legal values, all lists of classes tried, in any order, all import histories", "why_tests_cant": "A test decodes an object with its own class; that another class accepts no encoding of it is a statement about all octet strings, and the pairs are 1891", "anchors": ["pyasn1_modules/rfc5280.py:Certificate", "pyasn1_modules/rfc5280.py:CertificateList", "pyasn1_modules/rfc5652.py:ContentInfo", "pyasn1_modules/rfc7292.py:PFX", "pyasn1_modules/rfc5915.py:ECPrivateKey", "pyasn1_modules/rfc1901.py:Message", "pyasn1_modules/rfc5934.py:TAMPStatusQuery"]}
{"id": "C74", "title": "Classes of the same name in different modules", "statement": "299 names stand for more than one definition in the modules of the package (GeneralName for five, Attribute for several). If two classes have the same name, every octet string decode accepts with the one it accepts with the other, leaving the same octets over, exactly if the pair is not among 364 ordered pairs of definitions, each given with octets that only the first one accepts. But for five pairs whose components are named differently, the two values also say the same (equal leaves, unknown components absent or DEFAULT), and every legal value of the one class is encoded to octets that the other reads as such a value. For all names but 98, which are listed, all classes with the name accept exactly the same octets.", "quantifier": "all pairs of classes with the same name among the 1832 classes of the 130 modules, all octet strings, all legal values", "why_tests_cant": "Tests of a module use the classes of that module; whether another module's class of the same name would do is a statement about all octets, for more than four thousand pairs", "anchors": ["pyasn1_modules/rfc2459.py:GeneralName", "pyasn1_modules/rfc5280.py:GeneralName", "pyasn1_modules/rfc2511.py:GeneralName", "pyasn1_modules/rfc2459.py:CRLNumber", "pyasn1_modules/rfc2634.py:IssuerSerial", "pyasn1_modules/rfc3281.py:IssuerSerial", "pyasn1_modules/rfc2315.py:DigestedData", "pyasn1_modules/rfc5652.py:DigestedData"]}
{"id": "C75", "title": "A file with many objects of several classes comes back object by object", "statement": "Write legal values of any classes of the package (but the six defective ones) into one text: for each its DER encoding in base64, in lines of any width divisible by four, between the marker lines of its kind, with any lines before it that are not start markers. Reading the text block by block with readPemBlocksFromFile and all marker pairs, and decoding each block with the class of the index reported, gives exactly the objects written, in order, each of its own kind and with an equal value, and ends normally. If the file is cut within a block (its stop marker missing), the objects before it come back and the reader ends normally as well, so the loss is not noticed. A block without contents ends the reading normally too, and the objects after it are lost. A block that its class does not read ends it with the decoder's error, after the objects before it; one with a line that is not base64 by itself, with that of the base64 decoder.", "quantifier": "all lists of kinds with distinct marker lines, all lists of objects of classes of the package with legal values, all notes between them, all line widths divisible by four, and all places where the file may be cut", "why_tests_cant": "The number of objects, their classes, values, notes and line widths are unbounded, and what is read of one block depends on where the reading of the one before left the file; a test has one file.", "anchors": ["pyasn1_modules/pem.py:readPemBlocksFromFile", "tools/pkcs1dump.py", "pyasn1_modules/rfc2437.py:RSAPrivateKey", "pyasn1_modules/rfc2459.py:DSAPrivateKey"]}
{"id": "C76", "title": "Open types are resolved in BER too, with definite and with indefinite lengths", "statement": "In a program that has imported any modules of the package, ber.decoder.decode(b, asn1Spec=X(), decodeOpenTypes=True) returns what ber.decoder.decode(b, asn1Spec=X()) returns, with the same unused octets, except that each open type field whose governor is registered holds the decoding of its octets under the registered type, at any nesting; a field may be left as octets only if these begin with two zero octets, which look like the end of an indefinite length. It always ends, needing no more nesting than the input has octets. It succeeds whenever the plain decoder does and the contents of the fields with a registered governor can be decoded; with no such field the result is the plain one. Whatever the DER decoder returns with open types, the BER decoder returns too. The two classes whose governor does not exist (C25) are refused on every input. Octets after a complete encoding are returned untouched, so a reader of messages (C72) delivers the same whatever the pieces; no octets are accepted as two of the kinds of objects of C73; and what is returned is at most ten times as large as the octets read (C65).", "quantifier": "all classes of the package (completeness: all but the two of C25), all import histories, all octet strings in BER (definite and indefinite lengths, strings in pieces), all depths of nesting of open types", "why_tests_cant": "Octets, nestings and sets of imported modules are unbounded; the tests decode DER with open types only, and indefinite lengths go through a separate copy of the loop.", "anchors": ["pyasn1_modules/rfc5280.py:AlgorithmIdentifier", "pyasn1_modules/rfc2459.py:Extension", "pyasn1_modules/rfc4055.py:_algorithmIdentifierMapUpdate", "pyasn1_modules/rfc5652.py:ContentInfo", "pyasn1_modules/rfc2315.py:AttributeValueAssertion", "pyasn1_modules/rfc7292.py:BAG_TYPE"]}
{"id": "C77", "title": "An object assembled with typed contents is written and comes back with the same contents", "statement": "In a program that has imported any modules of the package, let an object of any class have, in each of its open type fields whose governor is registered, an object of the registered type, itself assembled in the same way to any depth, as after algId['parameters'] = RSASSA_PSS_params(). If the same object with the encodings of these contents is valid, der.encoder.encode writes the first like the second, and der.decoder.decode(..., decodeOpenTypes=True) gives back the same object with the same typed contents and the unused octets untouched; only elements of SET OFs may be in another order and empty collections in OPTIONAL components missing. If there is nothing to reorder or leave out, it is exactly the object that was written, and no two such objects have the same encoding. The BER decoder reads the same. Left out are the two registered types C12 does not cover, and the subject key identifier in rfc2459.Extension, which the encoder mistakes for the field.", "quantifier": "all classes but the defective and ungoverned ones, all import histories, all objects assembled with typed contents at any nesting, all octets that follow", "why_tests_cant": "Contents nest without bound (an AlgorithmIdentifier within the parameters of an AlgorithmIdentifier), each field may hold any registered type, and which types are registered depends on the imports; tests only re-encode what was decoded from a few samples.", "anchors": ["pyasn1_modules/rfc5280.py:AlgorithmIdentifier", "pyasn1_modules/rfc4055.py:RSASSA_PSS_params", "pyasn1_modules/rfc5652.py:Attribute", "tests/test_rfc4055.py"]}
{"id": "C78", "title": "Writing what was read brings octets into a form that stays", "statement": "Whatever octets a decoder accepts for a class, DER or not: if the value it returns can be encoded, it is a legal value, and encoder.encode gives octets that decode to the same value (up to the order in SET OFs and empty collections in OPTIONAL components) with what follows untouched, and that come out unchanged when decoded and encoded once more. The same holds from BER to DER: what ber.decoder accepts, with indefinite lengths and strings in pieces, and der.encoder writes, der.decoder reads as the same value. From BER to BER the value that is read again is exactly the one that was written. What was read can be written if and only if it is legal and its times can be written. Exceptions: times with zeros among the first four digits of their fraction, which are rewritten as in C68 and may need several passes; elements of indefinite length taken for an ANY, which the encoder copies.", "quantifier": "all octet strings, all classes but the six defective ones of C12, all values the decoders return, all octets that follow", "why_tests_cant": "The octets accepted are infinitely many and mostly not DER; tests re-encode a few well-formed samples and compare with the same sample.", "anchors": ["tools/pkcs7dump.py", "tools/x509dump.py", "tests/test_rfc5280.py", "pyasn1_modules/rfc5280.py:AlgorithmIdentifier", "pyasn1_modules/rfc5652.py:SigningTime"]}
{"id": "C79", "title": "Objects put into open type fields come back through the caller's own dictionary", "statement": "A program assembles an object whose open type fields hold objects of classes of its own choice, at any depth, and lists these classes in a dictionary it passes as openTypes. The object can be encoded; decoding the octets with that dictionary gives the same object with the same objects in its fields (up to the order in SET OFs and empty collections in OPTIONAL components), exactly the same if nothing in it can be reordered or left out, and leaves what follows untouched; fields whose governor is not in the dictionary are resolved by the dictionary of their class in the same decode. No two such objects in which nothing can be reordered or left out have the same encoding. A reader that does not open types gets the same object with the octets of the contents in these fields. Exceptions: classes C12 and C26 leave out, and contents with the same tags and constraints as the tagged field they are put in, which the encoder takes for the field itself.", "quantifier": "all sets of imported modules, all dictionaries of classes, of the package or defined by the program, that meet decidable conditions all classes of the package but those C12 and C26 leave out meet, all classes but those C12 and C26 leave out, all objects with typed contents nested to any depth, all octets that follow", "why_tests_cant": "Tests pass one copy of a dictionary of the package with one sample; the callers' dictionaries, the nestings and the objects are unboundedly many.", "anchors": ["tests/test_rfc5652.py", "tests/test_rfc4490.py", "pyasn1_modules/rfc5280.py:AlgorithmIdentifier", "pyasn1_modules/rfc5652.py:Attribute"]}
{"id": "C80", "title": "The BER decoder honours a caller's dictionary of open types as the DER decoder does", "statement": "ber.decoder.decode(b, asn1Spec=X(), openTypes=dict, decodeOpenTypes=...): without both options no field is opened; a non-empty dictionary works with and without the flag; with no dictionary the flag alone gives the result of C76. Otherwise the result is that of the plain BER decoder, with the same octets left over, except that the open type fields, at every depth, hold the decoding of their octets under the type the caller's dictionary has for the governor, or else the type in the dictionary of the class. It succeeds whenever the plain decoder does and these contents can be decoded, ends on every input, leaves what follows untouched, and gives the same messages in whatever pieces a stream arrives. What the DER decoder accepts with some options the BER decoder accepts with the same result, so the objects of C79 come back. A copy of the dictionary the class uses changes nothing, where the types in it use no other. With a dictionary of classes of the package, what is returned is at most ten times the size of what was read. The recipe in rfc6664.py makes the BER decoder, too, refuse the algorithm identifiers of RSA keys.", "quantifier": "all octet strings, all classes of the package, all sets of imported modules, all dictionaries of types without defaulted open type fields, all splittings of a stream", "why_tests_cant": "Tests use the DER decoder with copies of the package's own dictionaries on single samples; BER encodings, dictionaries and nestings are unboundedly many.", "anchors": ["pyasn1_modules/rfc6664.py", "pyasn1_modules/rfc5280.py:AlgorithmIdentifier", "tests/test_rfc5652.py", "tests/test_rfc4490.py"]}
{"id": "C81", "title": "Objects with typed contents sent one after the other arrive one by one", "statement": "A sender assembles any number of objects of a class with objects in their open type fields (C77, C79), encodes each and writes the octets one after the other. A reader that collects the octets in pieces of any size and decodes with open types, with or without a dictionary of its own and with the DER or the BER decoder, delivers every object once, in order, with the same objects in its open type fields (up to the order in SET OFs and empty collections in OPTIONAL components; exactly the same if nothing can be reordered or left out), and keeps the beginning of the next message until the rest arrives. A reader that does not open types gets the objects with the encodings of the contents as octets. No two lists of objects in which nothing can be reordered or left out make the same stream.", "quantifier": "all lists of objects, all splittings of the octets into pieces, all beginnings of further messages, all sets of imported modules, all dictionaries that meet the conditions of C79, all classes but those C12 and C26 leave out", "why_tests_cant": "Tests decode one complete object from memory; the splittings and the lists of objects are unboundedly many.", "anchors": ["tests/test_rfc5652.py", "tools/snmpget.py", "pyasn1_modules/rfc5280.py:AlgorithmIdentifier", "pyasn1_modules/rfc5652.py:Attribute"]}
{"id": "C82", "title": "Objects with typed contents of several classes in one PEM file come back", "statement": "A program assembles objects of several classes with objects in their open type fields (C77, C79) and writes their encodings in base64, in lines of any width that is a multiple of four, between the marker lines of their classes, with notes in between. A program that reads the file with pem.readPemBlocksFromFile and decodes each block with open types, with or without a dictionary of its own and with the DER or the BER decoder, gets every object once, in order, with the class of its own marker and the same objects in its open type fields (up to the order in SET OFs and empty collections in OPTIONAL components; exactly the same if nothing can be reordered or left out), and ends normally. If the file is cut within a block the objects before it come back and the loss is not noticed; if there is a block that cannot be decoded they come back and the decoder's error ends the reading. No two lists of objects in which nothing can be reordered or left out make the same file. The file is the one that C75 has for the objects with octets in their open type fields, so a program that does not open types reads those.", "quantifier": "all lists of kinds with distinct marker lines that hold a dash, all lists of objects, notes and line widths, all sets of imported modules, all dictionaries that meet the conditions of C79, all classes but those C12 and C26 leave out", "why_tests_cant": "Tests read one block of one kind from a literal; files, notes, widths and contents are unboundedly many.", "anchors": ["pyasn1_modules/pem.py:readPemBlocksFromFile", "tools/pkcs1dump.py", "pyasn1_modules/rfc5280.py:AlgorithmIdentifier", "pyasn1_modules/rfc5652.py:Attribute"]}
{"id": "C83", "title": "What matters of a dictionary passed as openTypes", "statement": "Two dictionaries passed as openTypes that have the same entries, put in in whatever order, have the same effect. Passing {**extra, **own} has the effect of passing own where the entries of extra have been put into all dictionaries of the classes. Passing a part of the dictionary that all open type fields of a class use changes nothing, if the types in this dictionary do not use other dictionaries. For a class without open type fields no dictionary, neither of the caller nor of the package, makes a difference. All this holds with the DER and the BER decoder.", "quantifier": "all dictionaries, all octets, all types (own_part: all types that use one of the dictionaries whose types do not use others, in all reachable states)", "why_tests_cant": "Tests pass one dictionary, a copy of that of the package, with a few literals.", "anchors": ["tests/test_rfc5280.py", "tests/test_rfc5652.py", "pyasn1_modules/rfc5280.py:algorithmIdentifierMap", "pyasn1_modules/rfc5652.py:cmsAttributesMap"]}
