# A Lean model of pyasn1-modules

## 1. What is in /repo, and what is modelled

`pyasn1_modules` is one small procedural module (`pem.py`), 130 declarative
modules (`rfcNNNN.py`) that build ASN.1 schema objects with pyasn1, and the
command line tools in `tools/`.  What a user relies on is

1. the extraction of octets from text that `pem.py` does;
2. what the schema objects make pyasn1's DER codec do for *every* value and
   *every* input: this depends on all tags, optionality, defaults, constraints
   and component orders the modules declare;
3. what importing modules does to the shared OID-to-type dictionaries;
4. what the tools print, and whether they end.

| part of the code | Lean | how |
|---|---|---|
| `pem.py`, all four functions, Python 3 branches | `Verif/Pem/Model.lean` | by hand, line by line |
| `pem.py`, Python 2 branches; binary files under Python 3 | `Verif/Pem/Versions.lean` | by hand, line by line |
| `rfc*.py`, all 130, every statement | `Verif/Gen/Rfc*.lean` | transcribed by `tools/gen.py`, one definition per statement, each citing file and lines; a construct the script does not know is an error |
| docstrings of `rfc4210.py` (ASN.1 notation) | `Verif/Gen/CmpDocs.lean` | parsed by `tools/asn1doc.py` |
| `tools/*dump.py` (all eleven) | `Verif/Tools/*` | by hand; `prettyPrint` text and usage messages left out |
| `tools/snmpget.py`, `tools/ocspclient.py` | `Tools/Client.lean` | as functions of arguments, standard input and the octets received; no sockets, no HTTP; the hash function is a parameter |
| `_OID` / `_buildOid` (19 copies) | `Verif/Gen/*`, `Verif/Py/Obj.lean` `oidLoop` | transcribed |
| pyasn1 schema objects | `Verif/Asn1/Types.lean`, `Verif/Py/Obj.lean` | environment model of pyasn1 0.4.8 |
| `import`, module-level dictionaries | `Verif/Py/Import.lean` | environment model |
| `import` from several threads | `Verif/Py/Threads.lean` | environment model of CPython's import locks |
| `decodeOpenTypes=True` while other threads import | `Verif/Asn1/OpenWhile.lean` | `Open.lean` with results of dictionary look-ups left open; equal to it when they are fixed (`wdecode_steady`) |
| `x[name] = y`, `x.append(y)` with objects of other classes, `isSuperTypeOf`, and `encode` of the result | `Verif/Asn1/Assign.lean` | objects with their classes; equal to the encoder of `Codec.lean` for objects of the class itself (`own_encoded`) |
| objects that are components of several others, or held by several variables | `Verif/Asn1/Heap.lean` | memory as a list of objects whose components are addresses; equal to `Assign.lean` for objects that are not shared (`assign_exact`) |
| pyasn1 DER codec | `Verif/Asn1/Codec.lean` | environment model of pyasn1 0.4.8 |
| pyasn1 BER codec (`snmpget.py`) | `Verif/Asn1/BerCodec.lean` | environment model of pyasn1 0.4.8 |
| `decodeOpenTypes=True` | `Verif/Asn1/Open.lean` | environment model of pyasn1 0.4.8 |
| `decodeOpenTypes=True` with the BER decoder | `Verif/Asn1/BerOpen.lean` | environment model of pyasn1 0.4.8; a marker in a list of contents (SET OF in a structure of indefinite length) is decoded like other octets |
| `openTypes={...}`, DER and BER | `Verif/Asn1/OpenTypes.lean`, `Verif/Asn1/BerOpenWith.lean` | environment model of pyasn1 0.4.8 |
| `omitEmptyOptionals=False` | `Verif/Asn1/Keep.lean` | environment model of pyasn1 0.4.8 |
| objects in memory: reading, assigning, encoding | `Verif/Asn1/Build.lean` | environment model of pyasn1 0.4.8 |
| `str.strip`, `file.readline`, `base64.b64decode` | `Verif/Pem/Model.lean`, `Verif/Pem/Versions.lean` | environment model of CPython 3 and of CPython 2.7 (C locale) |

Not modelled: `prettyPrint`, unicode file objects under Python 2, the
test suite, `setup.py`, the CER codec (nothing in the package uses it), exception classes and messages
(a raise is `none` or a constructor of the result type).

### The transcription

Class bodies, later attribute assignments (`X.componentType = ...`), item
assignments (`x['algorithm'] = ...`), dictionary literals and `map.update(...)`
are kept as separate definitions in program order.  A name that is rebound or
mutated is numbered (`X__0`, `X__1`, ..., the last version is `X`), so the
snapshot semantics of pyasn1 instances is visible: an instance made from `X__0`
is different from one made from `X`.  The script is not trusted to be right about
*meaning*: it only maps a Python call to the Lean function of the same name
(`Obj.subtype...` are split by keyword).  That all 4039 object definitions and 452
item assignments evaluate is a theorem (C31).

A type is a finite tree (`Ty`), a value is a finite tree (`Val`), octets are
`List UInt8`.  Encoder and decoder are structurally recursive on the type.

## 2. How the properties are proved

* A general theorem about the codec (or reader, or import machine) for every
  type satisfying a decidable predicate, and every value, input or program: by
  mutual induction on types, values or lists.  No bound on sizes or depths.
* A kernel-checked evaluation (`decide +kernel`) of the predicate over the
  complete table of the package's types.  The table is the whole domain.
* Types that fail the predicate: the list of exceptions is part of the theorem
  statement, the table shows that the list is exact, and for each exception
  there is a theorem showing what goes wrong.

Specifications are in `Verif/Spec/*`.  They share the data types (`Ty`, `Val`, text, octets) with the
model and avoid its functions, with these exceptions: `Spec/Asn1` uses the element reader
`readTLV` to say what an untagged ANY may hold and `presentNames` for constraints on
components; `Spec/Compat` speaks of `decode`, since it is about what two decoders do.
`Spec/Pem` (PEM text), `Spec/Asn1` (which values are legal, when two values are
the same up to normalisation), `Spec/Der` (X.690, written from the standard: which octets
encode a value), `Spec/Ber` (which octets are read as a value), `Spec/Empty`, `Spec/Oid`, `Spec/Open` (what an open field must
hold), `Spec/Governor`, `Spec/Notation` (ASN.1 notation), `Spec/Compat` (when one
type has a counterpart for all of another).

### Property by property

| | modelled | proof |
|---|---|---|
| C01–C03, C05–C07 | `readPemBlocksFromFile` over all texts and marker lists | `Props/Pem.lean`: induction on the lines of the file; the state machine is related to a declarative description of the text |
| C04, C08 | base64 with CPython's quirks | induction on the octets in groups of three; a grammar of what the lenient decoder takes (`Spec/Pem.lean: Lenient`), equivalence by strong induction on the text (`Pem/Lenient.lean`); non-multiples of 4 refuted by a concrete text |
| C09 | the dump tools on all inputs | `Props/Tools.lean`, `Props/Scripts.lean`: recursion on the text (each block read consumes some); labels and classes from `Spec/Scripts.lean` |
| C10, C11 | the OID builders, OID encoding | list induction; table of all OID constants |
| C12–C14, C16–C18 | encoder and decoder | `Asn1/Roundtrip.lean`: mutual induction on types for all values; `Package.wf_table` |
| C15, C32 | decoder on all inputs | `Asn1/Sound.lean`: induction on types for all octets |
| C19 | dispatch by tag | table of disjointness + theorem that disjointness makes dispatch right |
| C20 | snapshots | every instantiation of a class compared with the final class (`Gen/Final.lean`, by `rfl`) |
| C21, C22, C33 | constraints, names | a value is computed for every class and shown to round-trip; the rest is shown to be empty |
| C23, C24, C31 | all import programs | `Py/Import.lean`: induction on the fuel of nested imports and the list of imports; conflicts are enumerated |
| C25, C26 | open types | `Asn1/Open*.lean`: soundness, completeness, fuel-independence, re-encoding |
| C27 | predefined objects | each compared with the registries as they are after importing its module |
| C28 | superseded modules | `Asn1/Compat.lean`: simulation between the two decoders by mutual induction on the newer type; tables `Gen/Successors.lean` |
| C29 | CMP docstrings | the parsed notation is compared structurally; values described by the notation are exactly the legal values |
| C30 | protocol operations | the operation decoded is the operation encoded, for all values |
| C34–C37 | encoder and decoder against X.690 | `Asn1/Der*.lean`: the encoder is related to the declarative encoding relation of `Spec/Der` by mutual induction in both directions, the decoder reads everything in the relation; `Props/Der.lean`: table of types that break the tagging or ordering rules |
| C38–C39 | decoder against X.690 | `Spec/Ber.lean` says which octets are read as which value and marks where the decoder is laxer than X.690; `Asn1/BerPrim.lean`, `Asn1/Ber.lean`: everything accepted is in the relation (any type whose SETs have distinguishable components); `Asn1/BerRead.lean`: everything in the relation is accepted (well-formed types, one ambiguous laxity excluded); mutual inductions |
| C40 | `subtype(implicitTag=)`, `subtype(explicitTag=)` | `Props/Tagging.lean`: the encoder's outermost step separated from the rest, tag sets split at the last tag, against `Der.Identifier` and `Der.Element` |
| C41, C42 | `tools/snmpget.py`, `tools/ocspclient.py` | `Props/Client.lean`: the message values are legal and plain, so C12 applies; shapes of decoded certificates and responses from C15; PEM input by C04; replies by C69 |
| C43 | any SEQUENCE class, `rfc4210.ProtectedPart`, the three SignerInfo classes | `Props/Parts.lean`: induction over the leading components; each is read as one element (C12) and re-encodes to it; retagging of SET OF |
| C44 | `rfc2251.Filter`, `Filter2`, `Filter3`, `SearchRequest`, `LDAPMessage` | `Props/Filter.lean`: the three classes are proved to be the recursive definition unrolled; induction over filters and levels, using C39 |
| C45 | `rfc4210.NestedMessageContent`, `PKIMessage` | `Props/Nested.lean`: induction over trees of messages, one step by C12; cutting by C39 |
| C46 | `Constraint.ok`, `Constraint.add`, `_moveSizeSpec`, `subtype(subtypeSpec=)` | `Spec/Constraint.lean` says what a constraint means; `Props/Constraint.lean`: the model's evaluation agrees (mutual induction), effect of `subtype` by cases, table of all classes |
| C47 | the base classes, every type of the package | `Props/Universal.lean`: table over all nodes of all types, first octet from the encoder |
| C48 | four single-object tools and `pkcs7dump`, all inputs | `Props/Scripts.lean`: exact conditions for a normal end; content types from RFC 2315 in `Spec/Scripts.lean` |
| C49 | `cmcdump`, all inputs, any nesting | `Props/Cmc.lean`, `Props/Scripts.lean`: the loop against the inductive `Layers` and `Strange`; each layer is shorter than the one around it |
| C50 | every class of the modules with a text in `tools/std` | the standard's ASN.1 becomes a type in `Verif/Std/*` with the notation of `Spec/X680.lean`; `Spec/Relax.lean` defines a syntactic comparison, `Asn1/Relax.lean` proves by mutual induction that it implies agreement of legal values, encoder and decoder on all inputs; `Std/Check/*.lean` evaluate it for all classes, one file for each standard; with C35 and C37 this gives X.690's encoding of the standard's type |
| C51 | every module-level constant of these modules, prototypes included | the object is encoded, and compared with the encoding of the value written in `tools/std`; complete by comparison with the module's list of objects and prototypes; the ones that differ are shown to differ |
| C52 | every entry of the 24 dictionaries that stand for object classes of the standards, in every state that importing can lead to | `tools/std/objects.txt` lists `{ Type IDENTIFIED BY id }` per standard; the entries of the module are compared with it type by type (`Std/Objects/*`), the relation proved sound for all values and octets as in C50, and joined with the import model (C23, C24); objects no module registers are proved never found |
| C53 | every text and every list of marker pairs | `Spec/PemFile.lean` says what lines, trimmed lines, markers, bodies and a reading are, without the model; every text is shown to have a reading and the model to return it, by induction over the lines |
| C54 | every class of every module, all values, all octets | `Built/*` sets an ASN.1 type beside each class: the standard's (C50), or the standard's rebuilt on the 200 definitions of `tools/std/built` in which the package differs or which it adds; the classes agree with them, names included, by the relation of C50, so that nothing about a class that differs from its standard is left open |
| C55 | every open type field a class declares, every reachable state, all octets | `Spec/Governed.lean` lists the fields, governors and object classes; the declarations are compared with it, and C26 and C52 are joined: what decoding leaves in a field is the value of the standard's type |
| C56 | all dictionaries passed as `openTypes`, all classes, all reachable states, all octets | `Asn1/OpenTypes.lean` models the options; `Spec/OpenTypes.lean` says which dictionary decides, and the general soundness and completeness of C26 (for any resolution) are instantiated; that only the dictionaries in use matter is proved by induction on types and nesting; the common keys of all dictionaries are compared in a kernel-checked table; `Props/DictBounds.lean`: sizes and streams with a dictionary |
| C57 | all DER messages of all classes, nested open types to any depth, all reachable states | `Spec/OpenDer.lean`: an inductive predicate on octets saying that they are DER and that what their open type fields hold is DER again; induction on it, with C26 (sound, complete), C35/C37 and the encoder lemma of C26 (a component written in DER never equals its default, also when what its open type fields hold has been decoded); that registered types are well-formed and differ from the fields they go into is a kernel-checked table over all objects, with its exceptions listed |
| C58 | all values and DER messages of all classes, all nestings of open types, all reachable states | `Asn1/Keep.lean` models the encoder with `omitEmptyOptionals=False`; on well-formed types it is the encoder for the type whose OPTIONAL components are DEFAULT components without a default value (`Asn1/Held.lean`, `Asn1/KeepEnc.lean`, by induction), so the theorems behind C12, C35, C37 and C57 apply without their exception for empty collections; the exceptions that remain are kernel-checked tables and `postal_lost` |
| C59 | all objects of all classes, all sequences of reading and encoding | `Asn1/Build.lean` models objects with their empty places and what reading and encoding put there; reading and encoding only make an object grow (a relation, `Asn1/BuildGrow.lean`, by induction on types), and an object that has grown has the same value and encoding, if the constraints of its type grow with it (kernel-checked table, one exception) |
| C60 | all sequences of reading, assigning, encoding, successful or not, on objects of all classes; all legal values | an object has a value (`Ty.value`) or none; the object encoder is the encoder of C12 after it, for objects that fit their type, which all operations preserve (`Asn1/BuildValue.lean`, `Asn1/BuildSteps.lean`); for each legal value a list of assignments is constructed (`Asn1/BuildScript.lean`); two laws say what is found after an assignment, in the place assigned and elsewhere; exceptions (constraints on which components there are) by kernel-checked table; the tools' steps are evaluated for all arguments |
| C61 | all numbers of threads, all programs of imports, all schedules, all times | a small-step semantics (`Py/Threads.lean`): threads with stacks of modules being loaded, switched between any two imports and dictionary entries; an invariant kept by every step (what has been executed is visible; who waits, waits for a module lower in the import order), from which absence of exceptions, of deadlock and the final state follow; a decreasing weight for termination; the import graph and the write table of C23 and C24 as hypotheses |
| C62 | all pairs of states of which one is reached from the other by imports, all schedules of importing threads and all moments between which the decoder runs; all types, all octets | the decoder of C26 with a relation instead of a function for the dictionaries (`Asn1/OpenWhile.lean`), so that two looks at one key may differ; a refinement order on results stated by itself (`Spec/Refine.lean`: octets of an open field may be replaced by what they mean); four theorems by induction on depth and mutual induction on types: results are meanings of the plain result, later dictionaries refine, entire results cannot change, success later implies success earlier; C24 and C61 for the dictionaries |
| C63 | all objects assembled of objects of any classes, all sequences of assignments; all classes of the package, and classes derived from them by `subtype` | `Asn1/Assign.lean` models objects that carry their class, the test made by an assignment, and the encoder, which follows the classes of the objects; `Spec/Stands.lean` says, as an inductive relation, what an object of another class stands for; mutual induction on the relation: the encoder writes what the object stands for (`Asn1/AssignEnc.lean`), which is legal, so C12 applies; a syntactic comparison of classes implies the relation (`Asn1/AssignNarrow.lean`); acceptance is characterised by tags and constraints; successors by kernel-checked tables over the rows of C28 |
| C64 | all texts, all byte strings, all markers; Python 2 branch against Python 3 branch, text mode against binary mode | `Pem/Versions.lean` models the branch for Python 2 and CPython 2.7's base64 decoder (a different algorithm: it looks ahead for the second padding character); simulation of the loop on a file's UTF-8 bytes and on its text after translation of line ends, by induction on the length of the file; the two base64 decoders are equal on all byte strings by induction with an invariant on position and bits left; `Spec/Newlines.lean` has the line ends |
| C65 | all classes, all octet strings, all import histories | `Spec/Size.lean` measures values (objects, empty slots, octets of contents), types and nesting, without the decoder; mutual induction on types, with the octets of the elements as measure, shows size ≤ K × octets read (`Asn1/Size.lean`; BER `Asn1/BasicSize.lean`; with open types `Asn1/SizeOpen.lean`, by induction on the length: an opened field pays with its own octets); K = 10 for the package by a kernel-checked table over all classes and all registered types, and no smaller K does; nesting by mutual induction (`Asn1/Depth.lean`); the unlimited nesting of MGF1 in MGF1 by induction on its depth, for every import history with rfc4055 |
| C66 | all memories, all programs (sequences of making, decoding, copying, reading, assigning, clearing), all objects | `Asn1/Heap.lean` has objects at addresses and components as addresses; `Spec/Sharing.lean` says what an object looks like and what can be reached from it (inductive relations) and what a program can do (`Step`); invariant over all programs: what nothing held leads to stays as it is, and nothing held will lead to it; frame lemma by mutual induction on the look; trees and circles by the number of objects in a tree; the place of a change by induction on the path |
| C67 | all classes, all octets accepted; all BER encodings (definite length) of all values | `Spec/Shortest.lean` is the reading relation of C38 with the contents octets as a parameter; one mutual induction over it (`enc_rate`) compares the encoder's output with the octets read, for a rate of 2, 3 or 4 halves; headers by the number of base-128 and base-256 digits, integers from C34's shortest contents |
| C68 | all classes, all values, all texts in their times with at most one `.` | encoding a value is encoding the texts its times are rewritten to, as strings (`enc_rewritten`, mutual induction), so round trips carry over from C01; that rewriting changes something whenever a time is not plain by counting the characters of all times, which permutation of SET OF and dropping of empty collections leave alone; instants compared as fractions by cross-multiplication |
| C69 | BER codec, all classes | `Spec/Basic.lean` is X.690 section 8 as a relation, with indefinite lengths and strings in pieces; `Asn1/BasicRead.lean`, `Asn1/BasicSound.lean`: everything in it is read, nothing else is (mutual inductions over types; elements of indefinite length by induction over `Complete` and over the reader's fuel, `Asn1/BerElt.lean`); `Asn1/BasicWrite.lean`: what the encoder writes is in it, so that reading back is exact; `Asn1/BasicDer.lean`: the decoder extends that of DER; `Asn1/BasicSame.lean`: the encoders agree on types of a certain shape; `Asn1/BasicNoTrue.lean`: without TRUE what is written is BER in the sense of C38 too; `Asn1/BasicAdmits.lean`: constraints, as for C15 |
| C70 | DER encoder, all classes | `Spec/Change.lean`: values that differ in one place (`Differ`) and octet strings that do (`Changed`), independent of the encoder; `Asn1/Change.lean`: induction over `Differ`; components by position, sorted ones by taking an element out of a stable sort (`sortBy_between`); `Props/Change.lean`: for the classes, for DER received from elsewhere (with C37), and in terms of octets |
| C71 | dictionaries after any imports (as in C23), codec | tables over everything any module registers (`found`); `Spec/Path.lean`, `Spec/Look.lean`: parts of a value by the names of the standard; `Asn1/Look.lean`: induction over the path: every part of a value whose SET OFs are in another order is a part of the value (`look_found`, `look_pair`); `Props/Lookup.lean`: the objects, the loop (`walk_ty`), and the loops of the tests (`loops_walk`) |
| C72 | codec, all decoders (DER, BER, with open types after any imports) | `Spec/Stream.lean`: a reader that keeps a buffer, as written around the API by its users; from two facts about a decoder (it takes an octet at least and leaves what follows alone) induction over pieces and messages: `Props/Stream.lean`. The model does not tell `SubstrateUnderrunError` from other errors, so the reader stops at any of them (`blocked` says what that means) |
| C73 | DER decoder with and without open types, BER decoder, 62 classes | `Spec/Kinds.lean`: trying classes one after the other; `Asn1/Apart.lean`: a test on two types (`Ty.apart`) and the proof, by induction over the depth, that no element is accepted by both if it succeeds; `Props/Kinds.lean`: the test succeeds for all pairs of the 62 kinds but 26 (table), for each of which octets accepted by both are given (table). `Asn1/ApartBer.lean` and `Props/KindsBer.lean`: the same for the BER decoder, with a test that does not tell OCTET STRINGs and BIT STRINGs, which may come in pieces, from SEQUENCEs by their form; the exceptions are the same 26 |
| C74 | all classes of all modules, decoder | `Spec/Names.lean`: when two classes have the same name; `Gen/Names.lean` (written by tools/names.py, checked here): the 1041 names, the definitions of each, and for each ordered pair of definitions that differ octets only one reads; `Props/Names.lean`: the list is complete (`listed`, `names_ascending`), every other pair is compatible by the simulation of C28 (`agree_table`), the five pairs whose components have other names by hand, and the given octets do what is said (`differ_table`) |
| C75 | `pem.readPemBlocksFromFile`, base64, decoder and encoder together | `Spec/Bundle.lean`: the text of a file with the encodings of objects of several classes between their markers, with notes in between and lines of any width divisible by four, and the loop of tools/pkcs1dump.py:28-44 for any list of kinds; `Props/Bundle.lean`: by induction over the objects, from C01, C04, C12 and C17, all objects come back in order with the class of their own marker (`bundle_back`); a file cut within a block gives the objects before it and no error (`bundle_cut`) |
| C76 | BER decoder with `decodeOpenTypes=True`, all classes, all import histories | `Asn1/BerOpen.lean` models the loop over the open type fields in its two copies (definite and indefinite length); `Spec/BerOpen.lean` says on values what should come out, with the plain BER decoder; `Asn1/BerOpenSound.lean`, `BerOpenComplete.lean`, `BerOpenFuel.lean`, `BerOpenTypes.lean`: mutual induction on types as for C26, and simulation of the DER decoder; `BerOpenSize.lean`: sizes; `Props/BerOpen.lean` |
| C77 | encoder and decoders together, on objects with objects in their open type fields; all classes, all import histories | `Spec/Typed.lean`: `Typed` says when an object is assembled with objects of the registered types, as relation between it and the same object with octets in these fields, and `Alike` what may change on the way; `Asn1/Typed.lean`: the encoder writes both to the same octets; `TypedBack.lean`, `TypedAlike.lean`: mutual induction on `Typed`, with C12 for each content, and alignment of the elements of a SET OF; `Props/Typed.lean`. Two registered types are left out as C12 does not hold for them, and subject key identifiers in `rfc2459.Extension` as the encoder takes them for the field (C26) |
| C78 | decoder, then encoder, then decoder; DER and BER; any octets whatever | `Spec/Normal.lean`: `single`, what an untagged ANY holds; `Asn1/Normal.lean`: mutual induction on types: a value of the shape the decoders return (C15) that the encoder writes is legal in the sense of C12, but for its times, and both decoders take one element for an ANY; `Props/Normal.lean` joins this with C12, C68 and C69. No hypothesis on the octets; times with fractions that are rewritten are left out of the fixed point, and `time_twice` shows why |
| C79 | encoder on objects, decoder with `openTypes=` | `Props/TypedWith.lean`: the induction of C77 is over any registry; here over the one of C56 (`Spec/OpenTypes.lean`, `Resolution`), for dictionaries of types that are `Fit`, as those of the package are (`fit_of_package`). `Sound`: the field can be told from what it holds |
| C80 | BER decoder with `openTypes=` | `Asn1/BerOpenWith.lean`: the options as in C56 in front of the decoder of C76; `Props/BerOpenWith.lean`: C56's statements for BER, with the specification of C76 (`Spec/BerOpen.lean`) over the resolution of C56; streams as in C72; C79's objects |
| C81 | encoder on objects, reader of messages (`Spec/Stream.lean`), decoders with open types | `Props/TypedStream.lean`: C79 and C80 for each object; the decoders leave what follows alone and refuse proper beginnings (C72), so the loop delivers the objects, by induction on their list |
| C82 | `readPemBlocksFromFile`, encoder on objects, decoders with open types, the reading program of tools/ (`Spec/TypedBundle.lean`) | `Props/TypedBundle.lean`: C79 and C80 for each object, C75's lemmas for its block; by induction on the list of objects |
| C83 | `openTypes=`, DER and BER decoders | `Props/DictOrder.lean`: the types found for a key are characterised by `Spec/OpenTypes.lean` (`Resolution`), which does not know of an order; `own_part` and `no_fields` from the lemmas that a decoder only looks into the dictionaries its type uses |

No property of the list had to be given up as inexpressible.  Several are false
as a user would expect them; the theorem then has the exact exceptions, and the
counterexamples are theorems too (`MANIFEST.json`, notes).

## 3. Trusted base

* Lean 4.33.0's kernel.  No compiler: no `native_decide`, no `bv_decide`;
  `decide +kernel` is evaluated by the kernel.
* Axioms: every theorem depends on a subset of `propext`, `Classical.choice`,
  `Quot.sound`.  None are added.  There is no `sorry`.
* That `Verif/Gen/*.lean` says what `rfc*.py` says (the script and a reader's
  comparison; each definition cites its lines).
* For C50, C51 and C52: that the ASN.1 texts in `tools/std/*.asn1` and the objects in
  `tools/std/objects.txt` (turned into Lean by `tools/objgen.py`) are those of the standards.  They
  were written down from memory of the RFCs, without network access, in the notation
  of the RFCs, so a reader can compare them; ANY DEFINED BY and open types are ANY, as
  in the package.  Where memory was not certain (a tagging default, a single number) the definition is left out, and
  the text says so; the class or constant is then listed as without counterpart.  129 of the 130 modules have
  a text (not rfc5636); it gives the type of 1709 of 1820 classes and the value of 1470 of 1627 constants.
  `tools/stdgen.py` translates them, one definition per
  assignment.  The texts in `tools/std/built` (C54) are not from standards: they say what the package does
  instead, and are checked in full.  `tools/stdgrade.py`, which looks for grades and witnesses, is not trusted.
* That the environment model (section 4) is pyasn1 0.4.8 and CPython.

## 4. The environment model and its simplifications

pyasn1 is not in /repo (`requirements.txt`: `pyasn1>=0.4.7,<0.6.0`), and its source was not
available.  The model follows 0.4.8 as known to its author; what supports it is the
comparison with the test vectors (below) and, for the encoder, C35.

Types and constraints
* Tags are compared by class and number; the format bit of a schema tag only
  matters for encoding.
* `_moveSizeSpec`: a non-empty `sizeSpec` replaces a non-empty `subtypeSpec` of a
  constructed type; size constraints of SEQUENCE OF / SET OF are checked by the
  encoder only.
* `len()` of an integer raises, so a `ValueSizeConstraint` on an INTEGER admits
  nothing.
* String values are checked by their characters; the alphabet of, for
  example, PrintableString is not enforced by pyasn1, and not in the model.

Encoder (DER)
* Integers as `to_bytes(signed=True, length=...)` gives them: `-2^(8k-1)` gets one
  octet too many (C34).
* BOOLEAN 0/255; definite lengths; SET ordered by tag; SET OF ordered by
  zero-padded octets; components equal to their DEFAULT left out; components
  that encode to nothing are dropped if OPTIONAL (`ifNotEmpty`).
* Times with a fraction are rewritten by 0.4.8 (zeros among the first four characters after the `.`, from the right to
  the nearest `.`, are deleted): `trimTime`.  `valid` has only the times that are written as they are; C68 is about all.
* An element longer than 256^126 octets is refused.

Decoder (DER)
* Any tag and length octets that the BER reader accepts (non-minimal ones
  included); indefinite length refused.
* A component is dispatched by looking at its tag: SEQUENCE as pyasn1 does
  (`getTagMapNearPosition`: the next component of each up to and including the next
  mandatory one), SET and CHOICE by the tag map.  What pyasn1 does with an unmatched tag when
  an ANY is among the candidates is modelled for SEQUENCE; in CHOICE and SET an
  ANY takes what no earlier alternative takes.
* Octets after the element inside an explicit tag are ignored.
* ENUMERATED accepts numbers without a name.
* BIT STRING `03 01 07` (padding without octets) refused.
* The schema-less decoding that 0.4.8 falls back to when a spec has no
  components (`Sequence()` with an empty `componentType`) is not modelled: such a
  SEQUENCE accepts an empty body only.  No class of the package has one.
* The re-check of constraints that pyasn1 does on BIT STRING shifts is ignored.

BER codec (C69)
* Encoder: the default options (definite lengths, no chunks).  1 for TRUE, SET and SET OF in the order of the value, times as they
  are, nothing empty left out.
* Decoder: an element of indefinite length for an ANY, pieces of a string that are not primitive or have another tag than that of
  the string type, and character strings and times in pieces are `none` in the model (pyasn1 reads some of them).
* The end of an element of indefinite length is looked for before the value is built; pyasn1 does both at once.  An explicit tag with
  indefinite length has exactly one element inside.
* In 0.4.8 the decoders of CER and DER keep a table of decoders by type next to the one by tag, filled from that of BER.  Should the
  former be used in `der.decode` with a schema, a BOOLEAN is read as in BER and constructed strings are taken; the model of DER
  decoding is strict about both.  By C69 (`extends_der`) whatever it reads is read as the same value either way.

Open types
* Resolution per 0.4.8, with the options `openTypes` (C56) and `decodeOpenTypes`; the
  re-encoding test `isSameTypeWith`, wrapping in OCTET STRING, SET OF fields and
  `ifNotEmpty`.
* In the model a decoded ANY holding `05 00` compares equal to a `Null` DEFAULT.

Reading text
* A text file is a list of characters; universal newline translation is done
  before (`\r\n` as trailing whitespace is covered by C05).
* `base64.b64decode` ignores foreign characters and stops at the padding, as
  CPython's `binascii.a2b_base64` in non-strict mode does.  `tools/b64check.py` compares the model of `b64decode`,
  `strip`, `encode` and `readline` with the interpreter's on some thousand inputs (they agree; a test, not a proof).

Objects in memory
* In `Build.lean` and `Assign.lean` an object is a tree; two variables never hold the same object.  pyasn1 does not copy an object
  that is assigned: `Heap.lean` has objects with addresses, and C66 says when the tree is exact (one way to the part that is
  changed, no object a part of itself) and who can change an object otherwise.  In `Heap.lean` a call that raises changes nothing,
  and `encode` is a sequence of reads, which create what is missing (C59).
* Reading a component that is not there puts one there (`getComponentByPosition` with `instantiate`), in a CHOICE as well.
* `encode` puts an object into every component it passes (`SequenceEncoder` goes over `value.values()`).
* `isInconsistent` shows the constraint the components that are there, values or not.
* Simple objects made without an argument have no value, `Null()` included; rfc1157's `Version`, the only class with a `defaultValue`, is
  assigned its value.
* An operation that raises leaves the object as it was.  Positions beyond the end of a list are not assigned.
* Objects of other classes (C63): objects have values (incomplete ones are in `Build.lean`); constraints of different kinds with the
  same numbers, such as SIZE (1..2) and (1..2), which `isSuperTypeOf` takes for equal, are different; a component is compared with its
  DEFAULT by value; the elements of a list in an open type field are not wrapped (all of those in the package are ANYs without a tag).

Threads
* Each module has a lock that is held while its body runs (`importlib._bootstrap`, CPython 3.3 and later); a thread that imports a
  module another one is loading waits.  CPython's escape from a deadlock, which hands out a module not fully loaded, is left out:
  there is no deadlock.
* A decoder that runs meanwhile (C62) looks once at the dictionary for each open field; a look may give what the dictionary
  holds at any moment between the decoder's beginning and end, not necessarily later than the look before.  This allows more
  results than the interpreter; the result in `mixed` is one the interpreter can give (the look that finds nothing comes first).
* Threads are switched between imports and dictionary operations, and after each entry of an `update`; a dictionary is created with
  its entries in one step.  The classes a module body builds are its own until it ends, so that no other step can be observed.

### Validation

The model was compared with the DER vectors of /repo/tests (read as text):
`tools/vectors.py` makes a Lean script that decodes and re-encodes each vector, with and
without open types, and with `omitEmptyOptionals=False`.  163 of 173 agree with what the tests assert.  The others:
test_rfc5752 (the class's `asn1Spec` is not what the test decodes with); test_rfc4357, 4490,
4491, 7030 (the tests pass their own `openTypes` map; the script uses the registries with all
modules loaded, see `gost2001_refused`); the unordered vector of test_rfc2315, test_rfc4210 and 8696 (the tests
do not decode open types).  The ordered vector of test_rfc2315 comes back with open types only with
`omitEmptyOptionals=False`, in the model as in the test.

## 5. Defects of the code that the proofs turned up

* rfc2251: `UnbindRequest`, `DelRequest`, `AbandonRequest` cannot be sent or read
  inside an `LDAPMessage` (C12, C30).
* rfc1157: the trap PDU has no `[4]` tag and is refused (C30).
* rfc3280: `DirectoryString` is redefined as a CHOICE of one ANY (C28, C20).
* rfc6402: `ChangeSubjectName`, `CMCStatusInfoV2`; rfc3739: `SemanticsInformation`;
  rfc4108: `FirmwarePackageInfo` lose information or refuse values (C12).
* rfc4210: five deviations from the ASN.1 in the docstrings (C29).
* rfc2459: classes without any value, because a size constraint is put on an
  INTEGER (C21, C28).
* rfc2315 `AttributeValueAssertion`, rfc7292 `SafeBag`-style governor that does not exist: decoding
  with open types always fails (C25).
* Six OIDs are registered differently by several modules, so import order
  matters (C23, C24).
* rfc4357: NULL registered for the parameters of GOST keys, which are a SEQUENCE (C26).
* rfc7906, rfc4055, rfc5035: predefined objects that do not agree with the
  registries, or have odd default parameters (C27).
* rfc4055 (and rfc3560, rfc8017, which give them other names): the predefined `mgf1…Identifier` objects hold the `sha…Identifier` objects themselves, so that assigning
  to a component of one changes the other for the whole program; nothing stops an AlgorithmIdentifier from being made its own
  parameters, after which it cannot be encoded (C66).
* The dump tools stop at the first empty block; `cmcdump` does not end on
  unknown content types (C09).
* `ocspclient`: `ValueOnlyBitStringEncoder.encodeValue(*args)` takes no keywords and returns two
  values, while pyasn1 0.4.7 and later call it with keywords and expect three, so building a request always
  raises; the certificate ID in the answer is not compared with the one asked about (C42).
* PEM bodies with lines that are not a multiple of four characters long are
  decoded line by line and come out wrong (C04).
* rfc2634, 3281, 5035, 5755 (and classes of 5913 and 7906 that use them): the `value` of `SecurityCategory`,
  an ANY with tag `[1]`, is written as a primitive element `81` instead of `A1`: no
  value is ever encoded in DER (C35).
* pyasn1: a further `subtypeSpec` on a class with a `sizeSpec` (`GeneralNames` and 117 others) is
  silently ignored (C46).
* A signed part that is not DER (allowed in BER messages) is lost: encoding the decoded component
  gives other octets, so the signature cannot be checked (C43, `der_needed`).
* rfc2251: LDAP filters with three operators on a path are refused with the whole message (C44).
* rfc4210: `nestedMessageContent._componentType = PKIMessages()` has no effect; nested messages stay
  octets (C45).
* Compared with the objects of the standards (C52; `Props/Objects.lean` lists all):
  - rfc5755: targetInformation leads to `Targets`, the standard has `SEQUENCE OF Targets`: the extension is refused;
  - rfc7292: safeContentsBag leads to `SafeBag`, the standard has `SafeContents`;
  - rfc5280: no entry for inhibitAnyPolicy, freshestCRL and subjectInfoAccess nor for the policy qualifiers cps and
    unotice; rfc3739: none for the two semantics statements; rfc3161: none for the content type of a TSTInfo;
    rfc5914: none for that of a TrustAnchorList; none for the algorithms of rfc8103 and rfc8418 with parameters;
  - 22 entries are not compared (listed `unlisted`): parameters the standard leaves absent or that could not be checked.
* Compared with the standards (C50; `tools/std/grades.txt` has all of them):
  - rfc2459: `IssuingDistributionPoint` requires the booleans that default to FALSE; `TerminalType`, `ExtensionAttribute`,
    `CRLNumber`, `BaseCRLNumber`, `SkipCerts`, `PolicyConstraints` refuse every number, and with them `ORAddress`,
    `GeneralName` and what contains it refuse X.400 addresses; `UnformattedPostalAddress` limits the length
    of a line to the number of lines; `DomainParameters` requires `j`; constant `id_at_sutname` is misspelt.
  - rfc2511, rfc2560: `GeneralName` is a placeholder, so certificate IDs, publication info and signed requests with
    a requestor name are refused.
  - rfc4210: `PKIHeader.generalInfo`, the size of `PBMParameter.salt`, `CMPCertificate` without a CHOICE.
  - rfc4211, rfc5915, rfc3280, rfc5280: bounds that are not enforced.
  - rfc5208: `Attributes` is a SET OF of LDAP attributes, so a `PrivateKeyInfo` with attributes is refused.
  - rfc7292: `ContentInfo` without content is refused.
  - rfc3412: `ScopedPDU` takes SNMPv2 PDUs only.
  - rfc2437, rfc3560, rfc4055, rfc8017: the parameters of RSAES-OAEP and RSASSA-PSS are OPTIONAL where the standard has
    defaults (rfc2437: mandatory, with implicit tags), so omitted parameters are read as missing; the constants for the
    default parameters (`rSAES_OAEP_Default_Params` and so on) have no value and cannot be encoded.
  - rfc2634, rfc3281, rfc5035, rfc5755, and from them rfc5913, rfc7906: the value of a `SecurityCategory` is tagged
    implicitly, so it is written `81` instead of `A1`.
  - rfc5035: an omitted `hashAlgorithm` of an `ESSCertIDv2` is read as SHA-256 with parameters `04 00`, not absent; the same in
    `SigningCertificateV2` and rfc5752 `MultipleSignatures`.
  - rfc6402: `extendedFailInfo` of a `CMCStatusInfoV2` lacks its tag `[1]`.
  - rfc8418: `dhSinglePass_stdDH_sha256kdf_scheme` (384, 512) are `1.3.133.16.840.63.0.11.n`; RFC 5753 and the package's own
    rfc5753 have `1.3.132.1.11.n`.
  - rfc3370: `RC2CBCParameter` also accepts what RFC 3370 excludes.
  - rfc7508: `HeaderFieldName` allows control characters; rfc6031: the strings for encodings, PIN modes and key usages
    are not limited to the listed ones.
  - rfc4357: `gostR3410_94_ParamSetSyntax` ends in `8.1.1` where the other modules end in `n.1` (not compared);
    rfc6402: `id_kp_cmcArchive` and `id_kp_cmcRA` are both `1.3.6.1.5.5.7.3.28` (not compared).
  - rfc2251: components named otherwise than in the RFC; bind requests accept more than the RFC allows.
* rfc6664: the recipe in the comment at lines 124-132 breaks algorithm identifiers: a copy of `smimeCapabilityMap` passed as
  `openTypes` is used for them too, and has other types under 13 of their identifiers (C56 `recipe_refused`).
* rfc3770 and rfc4334, imported by two threads at a time, can leave the one's extension beside the other's attribute in the registries,
  which no order of imports does without threads (C61 `torn`).
* A decoder that runs while another thread imports a module may decode one of two equal open fields and leave the other as
  octets (C62 `mixed`).
* Importing a module can make a message undecodable (rfc4357 registers NULL for GOST R 34.10-2001 keys; C62 `may_fail_after`).
* rfc6211: an object of `CMSAlgorithmProtection` can be encoded once; encoding it puts an object into the component that its
  constraint wants absent (C59 `absence_once`).
* rfc3739: a `SemanticsInformation` without components can be encoded after one has been read, and is then refused by the decoder
  (C60 `read_satisfies`).
* pyasn1: only tags and constraints are compared when an object is assigned: a `Validity` is accepted as an `AlgorithmIdentifier`
  and encoded (C63 `accepts_by_tags`, `Examples.validity_accepted`); a class that narrows a constrained class is refused in its place
  (`subtype_refused`); eleven classes are refused where their compatible successors are expected, e.g. rfc2459's
  `RelativeDistinguishedName` by rfc5280's `RDNSequence` (`successor_refused`).
* An object in an OPTIONAL open type field that has no content, such as `RSASSA_PSS_params` with its defaults, is not encoded; the
  AlgorithmIdentifier has then no parameters (C63 `Examples.pss_vanishes`).
* pyasn1: reading an alternative of a CHOICE that is not the chosen one destroys the value, reading the element after the last one
  adds one, and an OPTIONAL component that is incomplete is left out without notice (C59, C60).
* rfc4055: MGF1 leads to `AlgorithmIdentifier`, so that with open types decoded an AlgorithmIdentifier (in any certificate
  or message) nests as deep as the sender likes, at most 17 octets a level, against CPython's default of 1000 nested
  calls; without open types nesting is at most 22 (C65). What CPython does then is not modelled.
* `pem.py` under Python 3 on a file opened in binary mode: no block is found and nothing is raised, as if the file had none (C64
  `binary_text_markers`).
* `snmpget`: the value of the variable is a `Null()` that nothing is assigned to; with a pyasn1 where `Null()` has no value the request cannot
  be encoded (C60, `snmpSteps`).
* pyasn1: of a SET component that occurs twice the last occurrence is taken (C38).
* pyasn1: `INTEGER -128` is encoded `02 02 FF 80` (C34); trailing zeros of named bits are not
  removed; UTCTime without seconds is accepted (C35).
* pyasn1: zeros inside the fraction of a time are deleted on writing, so that `235959.05Z` becomes `235959.5Z`: a TSTInfo
  (rfc3161) that was read is written with a later time, and the signature on it no longer fits (C68, `stamp_changed`).

## 6. Mutation tests

`seeded/LOG.jsonl` has one line for each attempt to break the model in a scratch
copy: what was edited, which claim it breaks, which theorems failed, what was
tightened.
