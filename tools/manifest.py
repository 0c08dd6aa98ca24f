import json,re
old=json.load(open('/verif/MANIFEST.json'))['claims']
keep=[c for c in old if c['property']<='C08']
def c(p,status,ths,note=""):
    return {"property":p,"status":status,"theorems":ths,"note":note}
P="Verif.Props."
new=[
c("C09","proved",[P+"Scripts.blocks_printed"]+[P+"Tools."+x for x in "dump_ends dump_dies dump_blocks dump_empty_block dump_no_block dump_bad_block scripts_ends".split()]),
c("C10","proved",[P+"Oid."+x for x in "oidLoop_eq builders_same build_arcs build_fails build_nested build_prefix".split()]),
c("C11","proved",[P+"Oid."+x for x in "oid_roundtrip oid_refused constants_table constant_roundtrip".split()]),
c("C12","proved",[P+"Codec."+x for x in "roundtrip_ty roundtrip roundtrip_exact roundtrip_plain reencode encode_isTLV".split()]+[P+"Defects."+x for x in "extendedFailInfo_never extendedFailInfo_lost subjectAlt_never subjectAlt_lost firmware_lost semantics_lost".split()]+["Verif.Package.wf_table"],"Six classes are exceptions (Verif.Package.defective); Verif.Package.wf_table shows they are the only ones, Props/Defects.lean and Props/Protocol.lean what goes wrong with each."),
c("C13","proved",[P+"Codec."+x for x in "encode_eq_iff prefix_free".split()]),
c("C14","proved",[P+"Codec."+x for x in "decode_append prefix_refused truncated_refused".split()]),
c("C15","proved",[P+"Constraint.decoded_obeys",P+"Constraint.ok_iff",P+"Codec.decoded_admitted"],"Size constraints of SEQUENCE OF / SET OF are not checked by the decoder and are not part of the claim."),
c("C16","proved",[P+"Codec."+x for x in "default_omitted_ty defaults_table defaults_legal default_omitted default_filled".split()]),
c("C17","proved",[P+"Codec."+x for x in "optional_empty encode_nonempty roundtrip_plain".split()]),
c("C18","proved",[P+"Codec."+x for x in "setOf_order setOf_order_package".split()]),
c("C19","proved",[P+"Codec."+x for x in "choice_dispatch optional_dispatch alternatives_disjoint optionals_disjoint".split()]),
c("C20","proved",[P+"Schema."+x for x in "no_stale_snapshot all_finished".split()]),
c("C21","proved",[P+"Schema."+x for x in "inhabited inhabited_decodes uninhabited_empty hopeless_table".split()],"The classes without values are listed and proved empty."),
c("C22","proved",[P+"Schema."+x for x in "component_names_distinct named_values_distinct unnamed_components".split()]),
c("C23","proved",[P+"Registry."+x for x in "order_irrelevant order_irrelevant_reach reordered wlanSSID_extension_order wlanSSID_attribute_order placeOfBirth_order".split()],"Fails for six contested keys; for each a counterexample is proved."),
c("C24","proved",[P+"Registry."+x for x in "entries_stay keys_stay registered registered_by pseudonym_overridden ecPublicKey_overridden gender_equivalent".split()],"Fails for the contested keys; counterexamples are proved."),
c("C25","proved",[P+"Open."+x for x in "governor_exists governor_keys open_field_kind governed_table registered_governed set_closed ungoverned_fails ungoverned_plain".split()],"Two classes are exceptions; they are proved to fail on every input."),
c("C26","proved",[P+"Open."+x for x in "open_sound open_depth open_complete open_unregistered open_encode gost2001_refused pssDefault_lost skiExtension_lost".split()],"Re-encoding has side conditions; their necessity is shown by the last two theorems."),
c("C27","proved",[P+"Prototype."+x for x in "uses_table uses_count prototype_agrees exception_disagrees".split()],"Five module objects are exceptions; each is proved to disagree."),
c("C28","proved",[P+"Compat."+x for x in "successor_reads successor_reads_encoding nested_reads successor_refuses covered_reads kept_reads generalName_kept sub_reads_encoding".split()],"Proved for all octet strings for every listed pair of classes; each pair in the list of incompatible ones has a proved counterexample, and covered_reads says which of its values are still read."),
c("C29","proved",[P+"Cmp."+x for x in "docs_fit docs_values fits_valid protectedPart_name protectedPart_values pkiBody_name pkiBody_values pbmParameter_values pkiHeader_values nested_values nested_encode".split()],"23 of the 28 classes with a docstring fit it; for each of the other five the difference is stated and proved."),
c("C30","proved",[P+"Protocol."+x for x in "operation_kept operations_differ choice_refuses pdus_table ldap_roundtrip ldap_unbind_lost ldap_delete_refused ldap_abandon_refused snmp_trap_refused".split()],"LDAP unbind, delete and abandon and the SNMPv1 trap are exceptions; each is proved to fail."),
c("C31","proved",[P+"Registry.import_ok"]+[P+"Import."+x for x in "import_evaluates import_fills import_entries bad_default bad_named bad_assign".split()],"import_ok is about the import graph and the dictionaries, import_evaluates and import_fills about each of the 4039 + 452 statements that build an object."),
c("C32","proved",[P+"Codec."+x for x in "decode_consumes decode_shorter".split()]),
c("C33","proved",[P+"Schema."+x for x in "named_number_usable named_allowed_table enumerated_open enumerated_accepts_all".split()]),
c("C34","proved",[P+"Encoding."+x for x in "integer_shortest integer_der integer_edge".split()]),
c("C35","proved",[P+"Encoding."+x for x in "encode_der encode_der_kept drop_same derOk_table careful_needed primitive_any category_not_der category_2634 category_3281 category_5035 category_5755 Examples.validity_der".split()],"Outside Package.defective and primitiveAny (17 classes, table exact), and for values meeting Der.care; careful_needed shows that its conditions on primitive values are needed."),
c("C36","proved",[P+"Encoding.der_decodes"]),
c("C37","proved",[P+"Encoding."+x for x in "encode_iff der_rewritten der_unique".split()],"For values without empty OPTIONAL collections that meet Der.care."),
c("C38","proved",[P+"Reading."+x for x in "accepted accepted_any sets_ok boolean_strict indefinite_refused set_last".split()],"The tolerated deviations are marked lax in Verif/Spec/Ber.lean."),
c("C39","proved",[P+"Reading."+x for x in "ber_read ber_unique decode_iff definite_count extension_false".split()]),
c("C40","proved",[P+"Tagging."+x for x in "implicit_encode explicit_encode implicit_choice".split()]),
c("C41","proved",[P+"Client."+x for x in "dotted_render dotted_leading snmpget_sends snmpget_iff snmpget_differs message_same snmp_long_reply snmp_reply snmp_reply_written snmp_reply_sound".split()]),
c("C42","proved",[P+"Client."+x for x in "ocsp_posts next_armored ocsp_differs ocsp_pem ocsp_mismatch ocsp_never ocsp_reply".split()],"ocsp_never: with pyasn1 0.4.7 and later the script posts nothing; the other theorems are for any encoder of the key."),
c("C43","proved",[P+"Parts."+x for x in "received received_class signed_part signed_received signed_table sent protected_part signed_attributes signer_2315 signer_3852 signer_5652 der_needed".split()]),
c("C44","proved",[P+"Filter."+x for x in "read refused decoded search_refused message_refused filter filter2 filter3".split()]),
c("C45","proved",[P+"Nested."+x for x in "received sendable cut messages".split()]),
c("C46","proved",[P+"Constraint."+x for x in "ok_iff subtype_narrows subtype_ignored subtype_raises subtype_widens union_widens choice_ignored effects class_narrowed".split()]),
c("C47","proved",[P+"Universal."+x for x in "table first_octet tagged base_tags".split()]),
c("C48","proved",[P+"Scripts."+x for x in "object_printed object_any pkcs7_printed pkcs7_any".split()]),
c("C49","proved",[P+"Scripts.cmc_printed",P+"Scripts.cmc_stuck"]+[P+"Cmc."+x for x in "cmc_decides cmc_hangs cmc_value".split()],"cmcdump is proved not to end on unknown content types."),
c("C50","proved",[P+"Standard."+x for x in "same_as_standard writes_standard_der relaxed_standard relaxed_writes_der widened_standard refused_standard changed_standard rewritten_standard names_standard classes_accounted".split()],"For the 129 modules with an ASN.1 text in tools/std (written from the standards); deviating classes are listed there in grades.txt, each with a proved witness. writes_standard_der leaves out rfc3739.SemanticsInformation, whose constraint counts components that are not sent when empty."),
c("C51","proved",[P+"Standard."+x for x in "constants_standard constants_differ constants_accounted".split()],"For the 129 modules with an ASN.1 text in tools/std. Eleven constants are not written as the standards have them (WRONG in grades.txt), which is proved: default parameters of RSA schemes without a value, and three object identifiers of rfc8418."),
c("C52","proved",[P+"Objects."+x for x in "registered_standard object_registered object_standard deviations_table missing_never".split()],"For 630 objects of 89 modules (tools/std/objects.txt). 28 objects have an entry of another type, listed, with what it does instead proved; 15 have no entry anywhere, proved never found; 22 entries are not compared (unlisted), six identifiers are contested between modules (C23)."),
c("C53","proved",[P+"Pem."+x for x in "reads reading_exists reading_unique trimmed_iff".split()],""),
c("C54","proved",[P+"Built."+x for x in "modules_described classes_described described_exactly every_class".split()],"1 module (rfc5636) has no standard in tools/std and is described directly. Open types are left to C19, C25, C26 and C52."),
c("C55","proved",[P+"Governed."+x for x in "declared_standard standard_declared opened_standard encrypted_refused".split()],"Fields of the class itself; classes nested in others are covered by C26, whose relation contains that of their parts."),
c("C56","proved",[P+"OpenTypes."+x for x in "off flag_only flag_implied resolved depth complete own_copy algorithm_classes copies_agree clashes_real recipe_refused recipe_works".split()]+[P+"DictBounds."+x for x in "append any_pieces size".split()],"`complete` and `depth` are for dictionaries whose types have no open type field with a default, as is the case for all classes of the package (usable_of_package)."),
c("C57","proved",[P+"OpenDer."+x for x in "open_rewritten allowed_spec irregular_real mgf1_distinguished pbkdf2_distinguished".split()]+[P+"Open.pssDefault_lost",P+"Open.skiExtension_lost"],"mgf1_distinguished and pbkdf2_distinguished show messages that meet the hypotheses, the second with a default that has an open type field in it and is left out."),
c("C58","proved",[P+"Keep."+x for x in "keep_roundtrip keep_der keep_rewritten keep_same open_keep_rewritten permitted_spec muddled_table postal_table uneven_real postal_lost defects_kept pssDefault_nested pssDefault_kept".split()],"pssDefault_nested shows a message that meets the hypotheses and that C57 leaves out; postal_lost shows that the exception for UnformattedPostalAddress is real."),
c("C59","proved",[P+"InMemory."+x for x in "looking_succeeds looking_harmless encoding_repeatable other_alternative_lost next_element_added absence_table absence_once".split()],"absence_once shows that the exception is real."),
c("C60","proved",[P+"InMemory."+x for x in "encode_value built_decodes buildable assigned_found others_untouched incomplete_left_out snmpget_builds ocspclient_builds conditional_table read_satisfies".split()],"The classes in `conditional` are left out; read_satisfies shows that for one of them the claim is false. snmpget_builds assigns the two values that come from class defaults."),
c("C61","proved",[P+"Threads."+x for x in "never_raises no_deadlock ends can_finish visible only_registered entries_stay same_result torn".split()],"torn is the exception: a schedule with a final state that no sequential order has."),
c("C62","proved",[P+"While."+x for x in "grows no_new_success stays during_meaning during_after during_before during_safe during_stays may_fail_after mixed".split()],"may_fail_after and mixed are the exceptions."),
c("C63","proved",[P+"Assign."+x for x in "narrower_accepted own_accepted assign_iff choose_iff append_iff assign_component class_stands stands_encoded own_encoded assigned_decodes assigned_decodes_newer assembled_decodes subtype_accepted subtype_refused explicit_refused implicit_refused successor_component successor_refused successor_misread accepts_by_tags accepts_all Examples.pss_vanishes".split()],"own_encoded excludes the seven classes of InMemory.conditional, and accepted_table, misread_table list exceptions; subtype_refused, successor_misread, accepts_by_tags and pss_vanishes say where assignment is too strict or too lax."),
c("C64","proved",[P+"Versions."+x for x in "blocks_same pem_same decoders_agree base64_text_same base64_file_same python2_roundtrip python2_no_linefeed binary_text_markers binary_never_octets binary_result Examples.crlf_file Examples.cr_only Examples.no_break_space Examples.binary_raises".split()],"crlf_file shows a file that meets the hypotheses; cr_only, no_break_space and binary_raises show that the exceptions are real."),
c("C65","proved",[P+"Size."+x for x in "size_general depth_general decoded_size opened_size factor_least decoded_depth opened_depth ber_size ber_depth".split()],"factor_least is a concrete case that meets the bound with equality; an import of rfc4055 meets the hypotheses of opened_depth (example below it)"),
c("C66","proved",[P+"Sharing."+x for x in "confined components_kept simple_kept new_apart copy_independent decoded_private assigned_itself found_same shared_seen cycle_iff cyclic_not_encoded step_trees not_reached one_place assign_exact assign_possible constants_shared own_parameters".split()],"Memory with addresses; programs are arbitrary sequences of operations. The tree model of C59, C60 and C63 is exact for objects that are not shared. Two remarks on the package: constants of rfc4055 share objects, and an AlgorithmIdentifier can be its own parameters."),
c("C67","proved",[P+"Shortest."+x for x in "recoded_double recoded_half recoded_half_any shortest readsBy_contents simple_shortest integer_length anys_short".split()],"For every class and every accepted input the re-encoding is at most twice as long as the octets consumed, at most half as long again without tagged ANYs, and not longer than any BER encoding with non-empty integers that are not edges; examples show growth 2 to 3, 3 to 4 and 7 to 9 octets."),
c("C68","proved",[P+"Times."+x for x in "fraction_written whole_seconds never_earlier same_instant text_kept accepted read_back kept_iff octets_kept written_alike stamp_changed".split()],"For every class and every value legal but for the text of its times (at most one dot): encoded iff every time is writable; read back with the times rewritten; the same iff no time loses a zero; the instant is never earlier and the same iff no zero is before another digit. pyasn1 0.4.8 is modelled (TimeEncoderMixIn)."),
c("C69","proved",[P+"BasicRules."+x for x in "roundtrip written injective valid accepted ber_read ber_unique decode_iff decode_append prefix_refused extends_der never_differs same_octets alike_count true_differs indefinite_same indefinite_same_of pieces_same obeyed to_der der_reads".split()],"decode_iff for the 1520 classes without a tagged ANY; for the others accepted and ber_read, as in C38 and C39. Elements of indefinite length for an ANY, nested pieces and character strings in pieces are outside the model of the decoder (DESIGN.md section 4)."),
c("C70","proved",[P+"Change."+x for x in "edit edit_simple edit_received edit_after edit_length edit_in_place".split()],"edit is for values without empty OPTIONAL collections (C17); edit_simple and edit_received, for places of simple type, need no such condition on the changed value."),
c("C71","proved",[P+"Lookup."+x for x in "lookup_accepted lookup_roundtrip lookup_rewritten walk_ty loops_walk".split()],"Excepts the identifiers of Lookup.blurred (round trip) and OpenDer.irregular (DER); blurred_real and irregular_real show that each of them has to be excepted."),
c("C72","proved",[P+"Streams."+x for x in "any_pieces any_pieces_ber any_pieces_open never_taken_back messages_delivered messages_delivered_ber sent_delivered blocked".split()],"The reader is user code around the API; it stops at any error, the model does not tell SubstrateUnderrunError apart."),
c("C73","proved",[P+"Kinds."+x for x in "apart_decode one_kind one_kind_open both recognised any_order files_distinct".split()]+[P+"KindsBer."+x for x in "apart_decode one_kind both recognised der_recognised any_order".split()],"26 pairs are exceptions; both shows octets for each. files_distinct is a set of 17 classes that meets the hypotheses of recognised and any_order."),
c("C74","proved",[P+"Names."+x for x in "namesake_reads namesake_refuses namesake_iff namesake_sent interchangeable".split()],"Gen/Names.lean lists the names, their definitions and the pairs that differ; that it is complete is proved (found, same_group). Certificates of rfc2459 and rfc5280 meet the hypotheses of interchangeable (example)."),
c("C75","proved",[P+"Bundle."+x for x in "bundle_back bundle_cut bundle_bad bundle_empty bundle_garbled".split()],"One statement over pem.py and the codec together; the markers must be lines with a dash and without white space around them, all different."),
c("C76","proved",[P+"BerOpen."+x for x in "open_sound open_depth open_complete open_unregistered open_der ungoverned_fails marker_left open_append any_pieces one_kind opened_size".split()],"C26 for the BER decoder. marker_left shows the field that stays as octets."),
c("C77","proved",[P+"Typed."+x for x in "typed_encode typed_roundtrip typed_exact typed_injective typed_ber flawed_table flawed_real".split()],"Objects with objects in their open type fields; the two registered types C12 does not cover and the subject key identifier of rfc2459.Extension are left out (Sound)."),
c("C78","proved",[P+"Normal."+x for x in "written_legal reread once transcoded ber_again can_be_written time_twice anyFree_table".split()],"time_twice shows that times are a real exception. The model's BER decoder has no elements of indefinite length for ANY."),
c("C79","proved",[P+"TypedWith."+x for x in "roundtrip exact injective plain_reader fit_of_package".split()],"Dictionaries may have classes the program defines itself, if they are Fit (decidable); fit_of_package: those of the package are."),
c("C80","proved",[P+"BerOpenWith."+x for x in "off flag_only flag_implied resolved depth complete of_der own_copy append any_pieces typed recipe_refused".split()]+[P+"DictBounds.ber_size"],"Same simplifications as C76: no elements of indefinite length for ANY."),
c("C81","proved",[P+"TypedStream."+x for x in "objects_delivered objects_exact objects_delivered_ber objects_exact_ber objects_plain objects_injective".split()],"With an empty dictionary this is about C77. The reader is the loop of Spec/Stream.lean, which ends with any exception."),
c("C82","proved",[P+"TypedBundle."+x for x in "bundle_back bundle_exact bundle_back_ber bundle_cut bundle_exact_ber bundle_bad bundle_injective plain_file".split()],"One statement over pem.py, the encoder on objects and the decoders with open types; conditions on markers as in C75, on objects as in C79."),
c("C83","proved",[P+"DictOrder."+x for x in "order order_ber merged merged_ber own_part own_part_ber no_fields no_fields_ber".split()],"own_part has own_copy of C56 as a special case."),
]
cl=keep+new
with open('/verif/MANIFEST.json','w') as f:
    f.write('{"claims":[\n'+",\n".join(json.dumps(x) for x in cl)+'\n]}\n')
