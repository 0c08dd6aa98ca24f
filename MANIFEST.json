{"claims":[
{"property": "C01", "status": "proved", "theorems": ["Verif.Props.Pem.first_block", "Verif.Props.Pem.first_block_eof", "Verif.Props.Pem.first_block_distinct"], "note": ""},
{"property": "C02", "status": "proved", "theorems": ["Verif.Props.Pem.no_block", "Verif.Props.Pem.unterminated", "Verif.Props.Pem.idx_neg_iff"], "note": ""},
{"property": "C03", "status": "proved", "theorems": ["Verif.Props.Pem.successive_blocks", "Verif.Props.Pem.successive_blocks_end"], "note": ""},
{"property": "C04", "status": "proved", "theorems": ["Verif.Props.Pem.wrap_roundtrip", "Verif.Props.Pem.readPemFromFile_roundtrip", "Verif.Props.Pem.wrap_fails", "Verif.Props.Pem.readBase64_any_width"], "note": ""},
{"property": "C05", "status": "proved", "theorems": ["Verif.Props.Pem.whitespace_insensitive", "Verif.Props.Pem.padding_insensitive"], "note": ""},
{"property": "C06", "status": "proved", "theorems": ["Verif.Props.Pem.first_block", "Verif.Props.Pem.foreign_markers_are_body"], "note": ""},
{"property": "C07", "status": "proved", "theorems": ["Verif.Props.Pem.duplicate_start_last_wins", "Verif.Props.Pem.reused_stop_never_ends"], "note": ""},
{"property": "C08", "status": "proved", "theorems": ["Verif.Props.Pem.readBase64_inserted", "Verif.Props.Pem.readBase64FromFile_inserted", "Verif.Props.Pem.readBase64_iff", "Verif.Props.Pem.readBase64_two"], "note": ""},
{"property": "C09", "status": "proved", "theorems": ["Verif.Props.Scripts.blocks_printed", "Verif.Props.Tools.dump_ends", "Verif.Props.Tools.dump_dies", "Verif.Props.Tools.dump_blocks", "Verif.Props.Tools.dump_empty_block", "Verif.Props.Tools.dump_no_block", "Verif.Props.Tools.dump_bad_block", "Verif.Props.Tools.scripts_ends"], "note": ""},
{"property": "C10", "status": "proved", "theorems": ["Verif.Props.Oid.oidLoop_eq", "Verif.Props.Oid.builders_same", "Verif.Props.Oid.build_arcs", "Verif.Props.Oid.build_fails", "Verif.Props.Oid.build_nested", "Verif.Props.Oid.build_prefix"], "note": ""},
{"property": "C11", "status": "proved", "theorems": ["Verif.Props.Oid.oid_roundtrip", "Verif.Props.Oid.oid_refused", "Verif.Props.Oid.constants_table", "Verif.Props.Oid.constant_roundtrip"], "note": ""},
{"property": "C12", "status": "proved", "theorems": ["Verif.Props.Codec.roundtrip_ty", "Verif.Props.Codec.roundtrip", "Verif.Props.Codec.roundtrip_exact", "Verif.Props.Codec.roundtrip_plain", "Verif.Props.Codec.reencode", "Verif.Props.Codec.encode_isTLV", "Verif.Props.Defects.extendedFailInfo_never", "Verif.Props.Defects.extendedFailInfo_lost", "Verif.Props.Defects.subjectAlt_never", "Verif.Props.Defects.subjectAlt_lost", "Verif.Props.Defects.firmware_lost", "Verif.Props.Defects.semantics_lost", "Verif.Package.wf_table"], "note": "Six classes are exceptions (Verif.Package.defective); Verif.Package.wf_table shows they are the only ones, Props/Defects.lean and Props/Protocol.lean what goes wrong with each."},
{"property": "C13", "status": "proved", "theorems": ["Verif.Props.Codec.encode_eq_iff", "Verif.Props.Codec.prefix_free"], "note": ""},
{"property": "C14", "status": "proved", "theorems": ["Verif.Props.Codec.decode_append", "Verif.Props.Codec.prefix_refused", "Verif.Props.Codec.truncated_refused"], "note": ""},
{"property": "C15", "status": "proved", "theorems": ["Verif.Props.Constraint.decoded_obeys", "Verif.Props.Constraint.ok_iff", "Verif.Props.Codec.decoded_admitted"], "note": "Size constraints of SEQUENCE OF / SET OF are not checked by the decoder and are not part of the claim."},
{"property": "C16", "status": "proved", "theorems": ["Verif.Props.Codec.default_omitted_ty", "Verif.Props.Codec.defaults_table", "Verif.Props.Codec.defaults_legal", "Verif.Props.Codec.default_omitted", "Verif.Props.Codec.default_filled"], "note": ""},
{"property": "C17", "status": "proved", "theorems": ["Verif.Props.Codec.optional_empty", "Verif.Props.Codec.encode_nonempty", "Verif.Props.Codec.roundtrip_plain"], "note": ""},
{"property": "C18", "status": "proved", "theorems": ["Verif.Props.Codec.setOf_order", "Verif.Props.Codec.setOf_order_package"], "note": ""},
{"property": "C19", "status": "proved", "theorems": ["Verif.Props.Codec.choice_dispatch", "Verif.Props.Codec.optional_dispatch", "Verif.Props.Codec.alternatives_disjoint", "Verif.Props.Codec.optionals_disjoint"], "note": ""},
{"property": "C20", "status": "proved", "theorems": ["Verif.Props.Schema.no_stale_snapshot", "Verif.Props.Schema.all_finished"], "note": ""},
{"property": "C21", "status": "proved", "theorems": ["Verif.Props.Schema.inhabited", "Verif.Props.Schema.inhabited_decodes", "Verif.Props.Schema.uninhabited_empty", "Verif.Props.Schema.hopeless_table"], "note": "The classes without values are listed and proved empty."},
{"property": "C22", "status": "proved", "theorems": ["Verif.Props.Schema.component_names_distinct", "Verif.Props.Schema.named_values_distinct", "Verif.Props.Schema.unnamed_components"], "note": ""},
{"property": "C23", "status": "proved", "theorems": ["Verif.Props.Registry.order_irrelevant", "Verif.Props.Registry.order_irrelevant_reach", "Verif.Props.Registry.reordered", "Verif.Props.Registry.wlanSSID_extension_order", "Verif.Props.Registry.wlanSSID_attribute_order", "Verif.Props.Registry.placeOfBirth_order"], "note": "Fails for six contested keys; for each a counterexample is proved."},
{"property": "C24", "status": "proved", "theorems": ["Verif.Props.Registry.entries_stay", "Verif.Props.Registry.keys_stay", "Verif.Props.Registry.registered", "Verif.Props.Registry.registered_by", "Verif.Props.Registry.pseudonym_overridden", "Verif.Props.Registry.ecPublicKey_overridden", "Verif.Props.Registry.gender_equivalent"], "note": "Fails for the contested keys; counterexamples are proved."},
{"property": "C25", "status": "proved", "theorems": ["Verif.Props.Open.governor_exists", "Verif.Props.Open.governor_keys", "Verif.Props.Open.open_field_kind", "Verif.Props.Open.governed_table", "Verif.Props.Open.registered_governed", "Verif.Props.Open.set_closed", "Verif.Props.Open.ungoverned_fails", "Verif.Props.Open.ungoverned_plain"], "note": "Two classes are exceptions; they are proved to fail on every input."},
{"property": "C26", "status": "proved", "theorems": ["Verif.Props.Open.open_sound", "Verif.Props.Open.open_depth", "Verif.Props.Open.open_complete", "Verif.Props.Open.open_unregistered", "Verif.Props.Open.open_encode", "Verif.Props.Open.gost2001_refused", "Verif.Props.Open.pssDefault_lost", "Verif.Props.Open.skiExtension_lost"], "note": "Re-encoding has side conditions; their necessity is shown by the last two theorems."},
{"property": "C27", "status": "proved", "theorems": ["Verif.Props.Prototype.uses_table", "Verif.Props.Prototype.uses_count", "Verif.Props.Prototype.prototype_agrees", "Verif.Props.Prototype.exception_disagrees"], "note": "Five module objects are exceptions; each is proved to disagree."},
{"property": "C28", "status": "proved", "theorems": ["Verif.Props.Compat.successor_reads", "Verif.Props.Compat.successor_reads_encoding", "Verif.Props.Compat.nested_reads", "Verif.Props.Compat.successor_refuses", "Verif.Props.Compat.covered_reads", "Verif.Props.Compat.kept_reads", "Verif.Props.Compat.generalName_kept", "Verif.Props.Compat.sub_reads_encoding"], "note": "Proved for all octet strings for every listed pair of classes; each pair in the list of incompatible ones has a proved counterexample, and covered_reads says which of its values are still read."},
{"property": "C29", "status": "proved", "theorems": ["Verif.Props.Cmp.docs_fit", "Verif.Props.Cmp.docs_values", "Verif.Props.Cmp.fits_valid", "Verif.Props.Cmp.protectedPart_name", "Verif.Props.Cmp.protectedPart_values", "Verif.Props.Cmp.pkiBody_name", "Verif.Props.Cmp.pkiBody_values", "Verif.Props.Cmp.pbmParameter_values", "Verif.Props.Cmp.pkiHeader_values", "Verif.Props.Cmp.nested_values", "Verif.Props.Cmp.nested_encode"], "note": "23 of the 28 classes with a docstring fit it; for each of the other five the difference is stated and proved."},
{"property": "C30", "status": "proved", "theorems": ["Verif.Props.Protocol.operation_kept", "Verif.Props.Protocol.operations_differ", "Verif.Props.Protocol.choice_refuses", "Verif.Props.Protocol.pdus_table", "Verif.Props.Protocol.ldap_roundtrip", "Verif.Props.Protocol.ldap_unbind_lost", "Verif.Props.Protocol.ldap_delete_refused", "Verif.Props.Protocol.ldap_abandon_refused", "Verif.Props.Protocol.snmp_trap_refused"], "note": "LDAP unbind, delete and abandon and the SNMPv1 trap are exceptions; each is proved to fail."},
{"property": "C31", "status": "proved", "theorems": ["Verif.Props.Registry.import_ok", "Verif.Props.Import.import_evaluates", "Verif.Props.Import.import_fills", "Verif.Props.Import.import_entries", "Verif.Props.Import.bad_default", "Verif.Props.Import.bad_named", "Verif.Props.Import.bad_assign"], "note": "import_ok is about the import graph and the dictionaries, import_evaluates and import_fills about each of the 4039 + 452 statements that build an object."},
{"property": "C32", "status": "proved", "theorems": ["Verif.Props.Codec.decode_consumes", "Verif.Props.Codec.decode_shorter"], "note": ""},
{"property": "C33", "status": "proved", "theorems": ["Verif.Props.Schema.named_number_usable", "Verif.Props.Schema.named_allowed_table", "Verif.Props.Schema.enumerated_open", "Verif.Props.Schema.enumerated_accepts_all"], "note": ""},
{"property": "C34", "status": "proved", "theorems": ["Verif.Props.Encoding.integer_shortest", "Verif.Props.Encoding.integer_der", "Verif.Props.Encoding.integer_edge"], "note": ""},
{"property": "C35", "status": "proved", "theorems": ["Verif.Props.Encoding.encode_der", "Verif.Props.Encoding.encode_der_kept", "Verif.Props.Encoding.drop_same", "Verif.Props.Encoding.derOk_table", "Verif.Props.Encoding.careful_needed", "Verif.Props.Encoding.primitive_any", "Verif.Props.Encoding.category_not_der", "Verif.Props.Encoding.category_2634", "Verif.Props.Encoding.category_3281", "Verif.Props.Encoding.category_5035", "Verif.Props.Encoding.category_5755", "Verif.Props.Encoding.Examples.validity_der"], "note": "Outside Package.defective and primitiveAny (17 classes, table exact), and for values meeting Der.care; careful_needed shows that its conditions on primitive values are needed."},
{"property": "C36", "status": "proved", "theorems": ["Verif.Props.Encoding.der_decodes"], "note": ""},
{"property": "C37", "status": "proved", "theorems": ["Verif.Props.Encoding.encode_iff", "Verif.Props.Encoding.der_rewritten", "Verif.Props.Encoding.der_unique"], "note": "For values without empty OPTIONAL collections that meet Der.care."},
{"property": "C38", "status": "proved", "theorems": ["Verif.Props.Reading.accepted", "Verif.Props.Reading.accepted_any", "Verif.Props.Reading.sets_ok", "Verif.Props.Reading.boolean_strict", "Verif.Props.Reading.indefinite_refused", "Verif.Props.Reading.set_last"], "note": "The tolerated deviations are marked lax in Verif/Spec/Ber.lean."},
{"property": "C39", "status": "proved", "theorems": ["Verif.Props.Reading.ber_read", "Verif.Props.Reading.ber_unique", "Verif.Props.Reading.decode_iff", "Verif.Props.Reading.definite_count", "Verif.Props.Reading.extension_false"], "note": ""},
{"property": "C40", "status": "proved", "theorems": ["Verif.Props.Tagging.implicit_encode", "Verif.Props.Tagging.explicit_encode", "Verif.Props.Tagging.implicit_choice"], "note": ""},
{"property": "C41", "status": "proved", "theorems": ["Verif.Props.Client.dotted_render", "Verif.Props.Client.dotted_leading", "Verif.Props.Client.snmpget_sends", "Verif.Props.Client.snmpget_iff", "Verif.Props.Client.snmpget_differs", "Verif.Props.Client.message_same", "Verif.Props.Client.snmp_long_reply", "Verif.Props.Client.snmp_reply", "Verif.Props.Client.snmp_reply_written", "Verif.Props.Client.snmp_reply_sound"], "note": ""},
{"property": "C42", "status": "proved", "theorems": ["Verif.Props.Client.ocsp_posts", "Verif.Props.Client.next_armored", "Verif.Props.Client.ocsp_differs", "Verif.Props.Client.ocsp_pem", "Verif.Props.Client.ocsp_mismatch", "Verif.Props.Client.ocsp_never", "Verif.Props.Client.ocsp_reply"], "note": "ocsp_never: with pyasn1 0.4.7 and later the script posts nothing; the other theorems are for any encoder of the key."},
{"property": "C43", "status": "proved", "theorems": ["Verif.Props.Parts.received", "Verif.Props.Parts.received_class", "Verif.Props.Parts.signed_part", "Verif.Props.Parts.signed_received", "Verif.Props.Parts.signed_table", "Verif.Props.Parts.sent", "Verif.Props.Parts.protected_part", "Verif.Props.Parts.signed_attributes", "Verif.Props.Parts.signer_2315", "Verif.Props.Parts.signer_3852", "Verif.Props.Parts.signer_5652", "Verif.Props.Parts.der_needed"], "note": ""},
{"property": "C44", "status": "proved", "theorems": ["Verif.Props.Filter.read", "Verif.Props.Filter.refused", "Verif.Props.Filter.decoded", "Verif.Props.Filter.search_refused", "Verif.Props.Filter.message_refused", "Verif.Props.Filter.filter", "Verif.Props.Filter.filter2", "Verif.Props.Filter.filter3"], "note": ""},
{"property": "C45", "status": "proved", "theorems": ["Verif.Props.Nested.received", "Verif.Props.Nested.sendable", "Verif.Props.Nested.cut", "Verif.Props.Nested.messages"], "note": ""},
{"property": "C46", "status": "proved", "theorems": ["Verif.Props.Constraint.ok_iff", "Verif.Props.Constraint.subtype_narrows", "Verif.Props.Constraint.subtype_ignored", "Verif.Props.Constraint.subtype_raises", "Verif.Props.Constraint.subtype_widens", "Verif.Props.Constraint.union_widens", "Verif.Props.Constraint.choice_ignored", "Verif.Props.Constraint.effects", "Verif.Props.Constraint.class_narrowed"], "note": ""},
{"property": "C47", "status": "proved", "theorems": ["Verif.Props.Universal.table", "Verif.Props.Universal.first_octet", "Verif.Props.Universal.tagged", "Verif.Props.Universal.base_tags"], "note": ""},
{"property": "C48", "status": "proved", "theorems": ["Verif.Props.Scripts.object_printed", "Verif.Props.Scripts.object_any", "Verif.Props.Scripts.pkcs7_printed", "Verif.Props.Scripts.pkcs7_any"], "note": ""},
{"property": "C49", "status": "proved", "theorems": ["Verif.Props.Scripts.cmc_printed", "Verif.Props.Scripts.cmc_stuck", "Verif.Props.Cmc.cmc_decides", "Verif.Props.Cmc.cmc_hangs", "Verif.Props.Cmc.cmc_value"], "note": "cmcdump is proved not to end on unknown content types."},
{"property": "C50", "status": "proved", "theorems": ["Verif.Props.Standard.same_as_standard", "Verif.Props.Standard.writes_standard_der", "Verif.Props.Standard.relaxed_standard", "Verif.Props.Standard.relaxed_writes_der", "Verif.Props.Standard.widened_standard", "Verif.Props.Standard.refused_standard", "Verif.Props.Standard.changed_standard", "Verif.Props.Standard.rewritten_standard", "Verif.Props.Standard.names_standard", "Verif.Props.Standard.classes_accounted"], "note": "For the 129 modules with an ASN.1 text in tools/std (written from the standards); deviating classes are listed there in grades.txt, each with a proved witness. writes_standard_der leaves out rfc3739.SemanticsInformation, whose constraint counts components that are not sent when empty."},
{"property": "C51", "status": "proved", "theorems": ["Verif.Props.Standard.constants_standard", "Verif.Props.Standard.constants_differ", "Verif.Props.Standard.constants_accounted"], "note": "For the 129 modules with an ASN.1 text in tools/std. Eleven constants are not written as the standards have them (WRONG in grades.txt), which is proved: default parameters of RSA schemes without a value, and three object identifiers of rfc8418."},
{"property": "C52", "status": "proved", "theorems": ["Verif.Props.Objects.registered_standard", "Verif.Props.Objects.object_registered", "Verif.Props.Objects.object_standard", "Verif.Props.Objects.deviations_table", "Verif.Props.Objects.missing_never"], "note": "For 630 objects of 89 modules (tools/std/objects.txt). 28 objects have an entry of another type, listed, with what it does instead proved; 15 have no entry anywhere, proved never found; 22 entries are not compared (unlisted), six identifiers are contested between modules (C23)."},
{"property": "C53", "status": "proved", "theorems": ["Verif.Props.Pem.reads", "Verif.Props.Pem.reading_exists", "Verif.Props.Pem.reading_unique", "Verif.Props.Pem.trimmed_iff"], "note": ""},
{"property": "C54", "status": "proved", "theorems": ["Verif.Props.Built.modules_described", "Verif.Props.Built.classes_described", "Verif.Props.Built.described_exactly", "Verif.Props.Built.every_class"], "note": "1 module (rfc5636) has no standard in tools/std and is described directly. Open types are left to C19, C25, C26 and C52."},
{"property": "C55", "status": "proved", "theorems": ["Verif.Props.Governed.declared_standard", "Verif.Props.Governed.standard_declared", "Verif.Props.Governed.opened_standard", "Verif.Props.Governed.encrypted_refused"], "note": "Fields of the class itself; classes nested in others are covered by C26, whose relation contains that of their parts."},
{"property": "C56", "status": "proved", "theorems": ["Verif.Props.OpenTypes.off", "Verif.Props.OpenTypes.flag_only", "Verif.Props.OpenTypes.flag_implied", "Verif.Props.OpenTypes.resolved", "Verif.Props.OpenTypes.depth", "Verif.Props.OpenTypes.complete", "Verif.Props.OpenTypes.own_copy", "Verif.Props.OpenTypes.algorithm_classes", "Verif.Props.OpenTypes.copies_agree", "Verif.Props.OpenTypes.clashes_real", "Verif.Props.OpenTypes.recipe_refused", "Verif.Props.OpenTypes.recipe_works", "Verif.Props.DictBounds.append", "Verif.Props.DictBounds.any_pieces", "Verif.Props.DictBounds.size"], "note": "`complete` and `depth` are for dictionaries whose types have no open type field with a default, as is the case for all classes of the package (usable_of_package)."},
{"property": "C57", "status": "proved", "theorems": ["Verif.Props.OpenDer.open_rewritten", "Verif.Props.OpenDer.allowed_spec", "Verif.Props.OpenDer.irregular_real", "Verif.Props.OpenDer.mgf1_distinguished", "Verif.Props.OpenDer.pbkdf2_distinguished", "Verif.Props.Open.pssDefault_lost", "Verif.Props.Open.skiExtension_lost"], "note": "mgf1_distinguished and pbkdf2_distinguished show messages that meet the hypotheses, the second with a default that has an open type field in it and is left out."},
{"property": "C58", "status": "proved", "theorems": ["Verif.Props.Keep.keep_roundtrip", "Verif.Props.Keep.keep_der", "Verif.Props.Keep.keep_rewritten", "Verif.Props.Keep.keep_same", "Verif.Props.Keep.open_keep_rewritten", "Verif.Props.Keep.permitted_spec", "Verif.Props.Keep.muddled_table", "Verif.Props.Keep.postal_table", "Verif.Props.Keep.uneven_real", "Verif.Props.Keep.postal_lost", "Verif.Props.Keep.defects_kept", "Verif.Props.Keep.pssDefault_nested", "Verif.Props.Keep.pssDefault_kept"], "note": "pssDefault_nested shows a message that meets the hypotheses and that C57 leaves out; postal_lost shows that the exception for UnformattedPostalAddress is real."},
{"property": "C59", "status": "proved", "theorems": ["Verif.Props.InMemory.looking_succeeds", "Verif.Props.InMemory.looking_harmless", "Verif.Props.InMemory.encoding_repeatable", "Verif.Props.InMemory.other_alternative_lost", "Verif.Props.InMemory.next_element_added", "Verif.Props.InMemory.absence_table", "Verif.Props.InMemory.absence_once"], "note": "absence_once shows that the exception is real."},
{"property": "C60", "status": "proved", "theorems": ["Verif.Props.InMemory.encode_value", "Verif.Props.InMemory.built_decodes", "Verif.Props.InMemory.buildable", "Verif.Props.InMemory.assigned_found", "Verif.Props.InMemory.others_untouched", "Verif.Props.InMemory.incomplete_left_out", "Verif.Props.InMemory.snmpget_builds", "Verif.Props.InMemory.ocspclient_builds", "Verif.Props.InMemory.conditional_table", "Verif.Props.InMemory.read_satisfies"], "note": "The classes in `conditional` are left out; read_satisfies shows that for one of them the claim is false. snmpget_builds assigns the two values that come from class defaults."},
{"property": "C61", "status": "proved", "theorems": ["Verif.Props.Threads.never_raises", "Verif.Props.Threads.no_deadlock", "Verif.Props.Threads.ends", "Verif.Props.Threads.can_finish", "Verif.Props.Threads.visible", "Verif.Props.Threads.only_registered", "Verif.Props.Threads.entries_stay", "Verif.Props.Threads.same_result", "Verif.Props.Threads.torn"], "note": "torn is the exception: a schedule with a final state that no sequential order has."},
{"property": "C62", "status": "proved", "theorems": ["Verif.Props.While.grows", "Verif.Props.While.no_new_success", "Verif.Props.While.stays", "Verif.Props.While.during_meaning", "Verif.Props.While.during_after", "Verif.Props.While.during_before", "Verif.Props.While.during_safe", "Verif.Props.While.during_stays", "Verif.Props.While.may_fail_after", "Verif.Props.While.mixed"], "note": "may_fail_after and mixed are the exceptions."},
{"property": "C63", "status": "proved", "theorems": ["Verif.Props.Assign.narrower_accepted", "Verif.Props.Assign.own_accepted", "Verif.Props.Assign.assign_iff", "Verif.Props.Assign.choose_iff", "Verif.Props.Assign.append_iff", "Verif.Props.Assign.assign_component", "Verif.Props.Assign.class_stands", "Verif.Props.Assign.stands_encoded", "Verif.Props.Assign.own_encoded", "Verif.Props.Assign.assigned_decodes", "Verif.Props.Assign.assigned_decodes_newer", "Verif.Props.Assign.assembled_decodes", "Verif.Props.Assign.subtype_accepted", "Verif.Props.Assign.subtype_refused", "Verif.Props.Assign.explicit_refused", "Verif.Props.Assign.implicit_refused", "Verif.Props.Assign.successor_component", "Verif.Props.Assign.successor_refused", "Verif.Props.Assign.successor_misread", "Verif.Props.Assign.accepts_by_tags", "Verif.Props.Assign.accepts_all", "Verif.Props.Assign.Examples.pss_vanishes"], "note": "own_encoded excludes the seven classes of InMemory.conditional, and accepted_table, misread_table list exceptions; subtype_refused, successor_misread, accepts_by_tags and pss_vanishes say where assignment is too strict or too lax."},
{"property": "C64", "status": "proved", "theorems": ["Verif.Props.Versions.blocks_same", "Verif.Props.Versions.pem_same", "Verif.Props.Versions.decoders_agree", "Verif.Props.Versions.base64_text_same", "Verif.Props.Versions.base64_file_same", "Verif.Props.Versions.python2_roundtrip", "Verif.Props.Versions.python2_no_linefeed", "Verif.Props.Versions.binary_text_markers", "Verif.Props.Versions.binary_never_octets", "Verif.Props.Versions.binary_result", "Verif.Props.Versions.Examples.crlf_file", "Verif.Props.Versions.Examples.cr_only", "Verif.Props.Versions.Examples.no_break_space", "Verif.Props.Versions.Examples.binary_raises"], "note": "crlf_file shows a file that meets the hypotheses; cr_only, no_break_space and binary_raises show that the exceptions are real."},
{"property": "C65", "status": "proved", "theorems": ["Verif.Props.Size.size_general", "Verif.Props.Size.depth_general", "Verif.Props.Size.decoded_size", "Verif.Props.Size.opened_size", "Verif.Props.Size.factor_least", "Verif.Props.Size.decoded_depth", "Verif.Props.Size.opened_depth", "Verif.Props.Size.ber_size", "Verif.Props.Size.ber_depth"], "note": "factor_least is a concrete case that meets the bound with equality; an import of rfc4055 meets the hypotheses of opened_depth (example below it)"},
{"property": "C66", "status": "proved", "theorems": ["Verif.Props.Sharing.confined", "Verif.Props.Sharing.components_kept", "Verif.Props.Sharing.simple_kept", "Verif.Props.Sharing.new_apart", "Verif.Props.Sharing.copy_independent", "Verif.Props.Sharing.decoded_private", "Verif.Props.Sharing.assigned_itself", "Verif.Props.Sharing.found_same", "Verif.Props.Sharing.shared_seen", "Verif.Props.Sharing.cycle_iff", "Verif.Props.Sharing.cyclic_not_encoded", "Verif.Props.Sharing.step_trees", "Verif.Props.Sharing.not_reached", "Verif.Props.Sharing.one_place", "Verif.Props.Sharing.assign_exact", "Verif.Props.Sharing.assign_possible", "Verif.Props.Sharing.constants_shared", "Verif.Props.Sharing.own_parameters"], "note": "Memory with addresses; programs are arbitrary sequences of operations. The tree model of C59, C60 and C63 is exact for objects that are not shared. Two remarks on the package: constants of rfc4055 share objects, and an AlgorithmIdentifier can be its own parameters."},
{"property": "C67", "status": "proved", "theorems": ["Verif.Props.Shortest.recoded_double", "Verif.Props.Shortest.recoded_half", "Verif.Props.Shortest.recoded_half_any", "Verif.Props.Shortest.shortest", "Verif.Props.Shortest.readsBy_contents", "Verif.Props.Shortest.simple_shortest", "Verif.Props.Shortest.integer_length", "Verif.Props.Shortest.anys_short"], "note": "For every class and every accepted input the re-encoding is at most twice as long as the octets consumed, at most half as long again without tagged ANYs, and not longer than any BER encoding with non-empty integers that are not edges; examples show growth 2 to 3, 3 to 4 and 7 to 9 octets."},
{"property": "C68", "status": "proved", "theorems": ["Verif.Props.Times.fraction_written", "Verif.Props.Times.whole_seconds", "Verif.Props.Times.never_earlier", "Verif.Props.Times.same_instant", "Verif.Props.Times.text_kept", "Verif.Props.Times.accepted", "Verif.Props.Times.read_back", "Verif.Props.Times.kept_iff", "Verif.Props.Times.octets_kept", "Verif.Props.Times.written_alike", "Verif.Props.Times.stamp_changed"], "note": "For every class and every value legal but for the text of its times (at most one dot): encoded iff every time is writable; read back with the times rewritten; the same iff no time loses a zero; the instant is never earlier and the same iff no zero is before another digit. pyasn1 0.4.8 is modelled (TimeEncoderMixIn)."},
{"property": "C69", "status": "proved", "theorems": ["Verif.Props.BasicRules.roundtrip", "Verif.Props.BasicRules.written", "Verif.Props.BasicRules.injective", "Verif.Props.BasicRules.valid", "Verif.Props.BasicRules.accepted", "Verif.Props.BasicRules.ber_read", "Verif.Props.BasicRules.ber_unique", "Verif.Props.BasicRules.decode_iff", "Verif.Props.BasicRules.decode_append", "Verif.Props.BasicRules.prefix_refused", "Verif.Props.BasicRules.extends_der", "Verif.Props.BasicRules.never_differs", "Verif.Props.BasicRules.same_octets", "Verif.Props.BasicRules.alike_count", "Verif.Props.BasicRules.true_differs", "Verif.Props.BasicRules.indefinite_same", "Verif.Props.BasicRules.indefinite_same_of", "Verif.Props.BasicRules.pieces_same", "Verif.Props.BasicRules.obeyed", "Verif.Props.BasicRules.to_der", "Verif.Props.BasicRules.der_reads"], "note": "decode_iff for the 1520 classes without a tagged ANY; for the others accepted and ber_read, as in C38 and C39. Elements of indefinite length for an ANY, nested pieces and character strings in pieces are outside the model of the decoder (DESIGN.md section 4)."},
{"property": "C70", "status": "proved", "theorems": ["Verif.Props.Change.edit", "Verif.Props.Change.edit_simple", "Verif.Props.Change.edit_received", "Verif.Props.Change.edit_after", "Verif.Props.Change.edit_length", "Verif.Props.Change.edit_in_place"], "note": "edit is for values without empty OPTIONAL collections (C17); edit_simple and edit_received, for places of simple type, need no such condition on the changed value."},
{"property": "C71", "status": "proved", "theorems": ["Verif.Props.Lookup.lookup_accepted", "Verif.Props.Lookup.lookup_roundtrip", "Verif.Props.Lookup.lookup_rewritten", "Verif.Props.Lookup.walk_ty", "Verif.Props.Lookup.loops_walk"], "note": "Excepts the identifiers of Lookup.blurred (round trip) and OpenDer.irregular (DER); blurred_real and irregular_real show that each of them has to be excepted."},
{"property": "C72", "status": "proved", "theorems": ["Verif.Props.Streams.any_pieces", "Verif.Props.Streams.any_pieces_ber", "Verif.Props.Streams.any_pieces_open", "Verif.Props.Streams.never_taken_back", "Verif.Props.Streams.messages_delivered", "Verif.Props.Streams.messages_delivered_ber", "Verif.Props.Streams.sent_delivered", "Verif.Props.Streams.blocked"], "note": "The reader is user code around the API; it stops at any error, the model does not tell SubstrateUnderrunError apart."},
{"property": "C73", "status": "proved", "theorems": ["Verif.Props.Kinds.apart_decode", "Verif.Props.Kinds.one_kind", "Verif.Props.Kinds.one_kind_open", "Verif.Props.Kinds.both", "Verif.Props.Kinds.recognised", "Verif.Props.Kinds.any_order", "Verif.Props.Kinds.files_distinct", "Verif.Props.KindsBer.apart_decode", "Verif.Props.KindsBer.one_kind", "Verif.Props.KindsBer.both", "Verif.Props.KindsBer.recognised", "Verif.Props.KindsBer.der_recognised", "Verif.Props.KindsBer.any_order"], "note": "26 pairs are exceptions; both shows octets for each. files_distinct is a set of 17 classes that meets the hypotheses of recognised and any_order."},
{"property": "C74", "status": "proved", "theorems": ["Verif.Props.Names.namesake_reads", "Verif.Props.Names.namesake_refuses", "Verif.Props.Names.namesake_iff", "Verif.Props.Names.namesake_sent", "Verif.Props.Names.interchangeable"], "note": "Gen/Names.lean lists the names, their definitions and the pairs that differ; that it is complete is proved (found, same_group). Certificates of rfc2459 and rfc5280 meet the hypotheses of interchangeable (example)."},
{"property": "C75", "status": "proved", "theorems": ["Verif.Props.Bundle.bundle_back", "Verif.Props.Bundle.bundle_cut", "Verif.Props.Bundle.bundle_bad", "Verif.Props.Bundle.bundle_empty", "Verif.Props.Bundle.bundle_garbled"], "note": "One statement over pem.py and the codec together; the markers must be lines with a dash and without white space around them, all different."},
{"property": "C76", "status": "proved", "theorems": ["Verif.Props.BerOpen.open_sound", "Verif.Props.BerOpen.open_depth", "Verif.Props.BerOpen.open_complete", "Verif.Props.BerOpen.open_unregistered", "Verif.Props.BerOpen.open_der", "Verif.Props.BerOpen.ungoverned_fails", "Verif.Props.BerOpen.marker_left", "Verif.Props.BerOpen.open_append", "Verif.Props.BerOpen.any_pieces", "Verif.Props.BerOpen.one_kind", "Verif.Props.BerOpen.opened_size"], "note": "C26 for the BER decoder. marker_left shows the field that stays as octets."},
{"property": "C77", "status": "proved", "theorems": ["Verif.Props.Typed.typed_encode", "Verif.Props.Typed.typed_roundtrip", "Verif.Props.Typed.typed_exact", "Verif.Props.Typed.typed_injective", "Verif.Props.Typed.typed_ber", "Verif.Props.Typed.flawed_table", "Verif.Props.Typed.flawed_real"], "note": "Objects with objects in their open type fields; the two registered types C12 does not cover and the subject key identifier of rfc2459.Extension are left out (Sound)."},
{"property": "C78", "status": "proved", "theorems": ["Verif.Props.Normal.written_legal", "Verif.Props.Normal.reread", "Verif.Props.Normal.once", "Verif.Props.Normal.transcoded", "Verif.Props.Normal.ber_again", "Verif.Props.Normal.can_be_written", "Verif.Props.Normal.time_twice", "Verif.Props.Normal.anyFree_table"], "note": "time_twice shows that times are a real exception. The model's BER decoder has no elements of indefinite length for ANY."},
{"property": "C79", "status": "proved", "theorems": ["Verif.Props.TypedWith.roundtrip", "Verif.Props.TypedWith.exact", "Verif.Props.TypedWith.injective", "Verif.Props.TypedWith.plain_reader", "Verif.Props.TypedWith.fit_of_package"], "note": "Dictionaries may have classes the program defines itself, if they are Fit (decidable); fit_of_package: those of the package are."},
{"property": "C80", "status": "proved", "theorems": ["Verif.Props.BerOpenWith.off", "Verif.Props.BerOpenWith.flag_only", "Verif.Props.BerOpenWith.flag_implied", "Verif.Props.BerOpenWith.resolved", "Verif.Props.BerOpenWith.depth", "Verif.Props.BerOpenWith.complete", "Verif.Props.BerOpenWith.of_der", "Verif.Props.BerOpenWith.own_copy", "Verif.Props.BerOpenWith.append", "Verif.Props.BerOpenWith.any_pieces", "Verif.Props.BerOpenWith.typed", "Verif.Props.BerOpenWith.recipe_refused", "Verif.Props.DictBounds.ber_size"], "note": "Same simplifications as C76: no elements of indefinite length for ANY."},
{"property": "C81", "status": "proved", "theorems": ["Verif.Props.TypedStream.objects_delivered", "Verif.Props.TypedStream.objects_exact", "Verif.Props.TypedStream.objects_delivered_ber", "Verif.Props.TypedStream.objects_exact_ber", "Verif.Props.TypedStream.objects_plain", "Verif.Props.TypedStream.objects_injective"], "note": "With an empty dictionary this is about C77. The reader is the loop of Spec/Stream.lean, which ends with any exception."},
{"property": "C82", "status": "proved", "theorems": ["Verif.Props.TypedBundle.bundle_back", "Verif.Props.TypedBundle.bundle_exact", "Verif.Props.TypedBundle.bundle_back_ber", "Verif.Props.TypedBundle.bundle_cut", "Verif.Props.TypedBundle.bundle_exact_ber", "Verif.Props.TypedBundle.bundle_bad", "Verif.Props.TypedBundle.bundle_injective", "Verif.Props.TypedBundle.plain_file"], "note": "One statement over pem.py, the encoder on objects and the decoders with open types; conditions on markers as in C75, on objects as in C79."},
{"property": "C83", "status": "proved", "theorems": ["Verif.Props.DictOrder.order", "Verif.Props.DictOrder.order_ber", "Verif.Props.DictOrder.merged", "Verif.Props.DictOrder.merged_ber", "Verif.Props.DictOrder.own_part", "Verif.Props.DictOrder.own_part_ber", "Verif.Props.DictOrder.no_fields", "Verif.Props.DictOrder.no_fields_ber"], "note": "own_part has own_copy of C56 as a special case."}
]}
