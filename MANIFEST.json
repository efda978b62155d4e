{"claims": [
 {"property": "C01", "status": "proved", "theorems": ["ReqIF.Props.C01_attr", "ReqIF.Props.C01_text", "ReqIF.C01_public"], "note": "iff: the conditions are exact The same for the public helper reqif_escape, which the program itself does not call (C01_public)."},
 {"property": "C02", "status": "proved", "theorems": ["ReqIF.Props.C02_no_markup", "ReqIF.Props.C02_refs", "ReqIF.Props.C02_charwise"], "note": ""},
 {"property": "C03", "status": "proved", "theorems": ["ReqIF.C03_attr", "ReqIF.C03_spaces"], "note": "Equivalence for every string; with XML characters the result is the string with one space for every tab and line end. The whole value in a whole document is C33_roundtrip."},
 {"property": "C04", "status": "proved", "theorems": ["ReqIF.C04_text", "ReqIF.C04_title", "ReqIF.C04_markup"], "note": "C04_text is an equivalence for every string (the title element on its own); C04_title is the whole header in a whole document; C04_markup shows the kinds of failure."},
 {"property": "C05", "status": "proved", "theorems": ["ReqIF.Props.C05_unindent_indent", "ReqIF.Props.C05_stripped_exists_unique"], "note": "iff"},
 {"property": "C06", "status": "proved", "theorems": ["ReqIF.Props.C06_indent_shape", "ReqIF.Props.joinLines_lines"], "note": ""},
 {"property": "C07", "status": "proved", "theorems": ["ReqIF.C07_format", "ReqIF.C07_other_shape"], "note": "Years 1000-9999: what strftime prints for smaller years depends on the platform. The digits are spelled out independently of Nat.toDigits."},
 {"property": "C08", "status": "proved", "theorems": ["ReqIF.C08_parse_calls", "ReqIF.C08_recorded"], "note": "any callback, also one that may raise"},
 {"property": "C09", "status": "proved", "theorems": ["ReqIF.C09_transparent"], "note": ""},
 {"property": "C10", "status": "proved", "theorems": ["ReqIF.C10_unparse_calls"], "note": ""},
 {"property": "C11", "status": "proved", "theorems": ["ReqIF.C11_calls_on_failure"], "note": ""},
 {"property": "C12", "status": "proved", "theorems": ["ReqIF.C12_parse", "ReqIF.C12_parse_failure", "ReqIF.C12_unparse"], "note": ""},
 {"property": "C13", "status": "proved", "theorems": ["ReqIF.C13_preorder", "ReqIF.C13_count"], "note": ""},
 {"property": "C14", "status": "proved", "theorems": ["ReqIF.C14_agree"], "note": ""},
 {"property": "C15", "status": "proved", "theorems": ["ReqIF.C15_levels"], "note": ""},
 {"property": "C16", "status": "proved", "theorems": ["ReqIF.C16_conversion", "ReqIF.C16_buried_section"], "note": "For trees whose sections all hang below sections. Otherwise the code raises IndexError: C16_buried_section is the witness."},
 {"property": "C17", "status": "proved", "theorems": ["ReqIF.C17_add_child", "ReqIF.C17_add_child_levels", "ReqIF.C17_refuses_level_zero", "ReqIF.C17_indentation", "ReqIF.C17_every_node"], "note": ""},
 {"property": "C18", "status": "proved", "theorems": ["ReqIF.C18_spec_objects"], "note": ""},
 {"property": "C19", "status": "proved", "theorems": ["ReqIF.C19_parents", "ReqIF.C19_no_content"], "note": "A bundle without content raises KeyError for every reference (C19_no_content)."},
 {"property": "C20", "status": "proved", "theorems": ["ReqIF.C20_type_by_ref"], "note": ""},
 {"property": "C21", "status": "proved", "theorems": ["ReqIF.C21_maps", "ReqIF.C21_keys"], "note": ""},
 {"property": "C22", "status": "proved", "theorems": ["ReqIF.C22_types"], "note": ""},
 {"property": "C23", "status": "proved", "theorems": ["ReqIF.C23_missing_ends", "ReqIF.C23_not_fatal"], "note": "A relation without TYPE is a fatal AssertionError; C23_not_fatal therefore asks for a TYPE child."},
 {"property": "C24", "status": "proved", "theorems": ["ReqIF.C24_causes", "ReqIF.C24_xml_error", "ReqIF.C24_reqif_root", "ReqIF.C24_pi_first"], "note": "Well-formed means accepted by the model's XML reader (no DOCTYPE). C24_pi_first is the witness for the exception in the statement."},
 {"property": "C25", "status": "proved", "theorems": ["ReqIF.C25_only_reqifz", "ReqIF.C25_fails_iff"], "note": ""},
 {"property": "C26", "status": "proved", "theorems": ["ReqIF.C26_empty_root", "ReqIF.C26_round_trip", "ReqIF.C26_no_namespace"], "note": ""},
 {"property": "C27", "status": "proved", "theorems": ["ReqIF.C27_exit_code", "ReqIF.C27_no_input"], "note": "Printing the description of an issue can itself raise (an element with a processing instruction); then there is no report."},
 {"property": "C28", "status": "proved", "theorems": ["ReqIF.C28_semantic_issues"], "note": ""},
 {"property": "C29", "status": "proved", "theorems": ["ReqIF.C29_restored", "ReqIF.C29_command"], "note": "The xmlschema calls are an arbitrary function that may change the directory and raise."},
 {"property": "C30", "status": "proved", "theorems": ["ReqIF.C30_roundtrip", "ReqIF.C30_bundles", "ReqIF.C30_other_name", "ReqIF.C30_attachment_name"], "note": "The zip container is the list of its members (names and bytes). C30_roundtrip for any bundles that come back by themselves, with any callbacks that do not raise; C30_bundles for safe bundles (C43); the other two show that the conditions on the names are needed."},
 {"property": "C31", "status": "proved", "theorems": ["ReqIF.C31_names", "ReqIF.C31_members"], "note": "Of several members with the same name the last one is read."},
 {"property": "C32", "status": "proved", "theorems": ["ReqIF.C32_roundtrip", "ReqIF.C32_equal", "ReqIF.C32_ampersand", "ReqIF.C32_entity", "ReqIF.C32_quote", "ReqIF.C32_selfClosed", "ReqIF.C32_newline"], "note": "Data types whose strings are safe where they are printed raw or escaped come back equal in any document with an ordinary REQ-IF tag; five witnesses show what is lost outside these conditions."},
 {"property": "C33", "status": "proved", "theorems": ["ReqIF.C33_roundtrip", "ReqIF.C33_enum_order", "ReqIF.exampleValues_safe", "ReqIF.C33_quote", "ReqIF.C33_none", "ReqIF.C33_tab", "ReqIF.C33_wrong_prefix", "ReqIF.C33_no_namespace", "ReqIF.C33_public"], "note": "For every list of attribute values whose strings are safe where the code prints them without escaping, under every ordinary root tag; the read values also print the same text. The condition is SafeValue (Spec/RoundTrip); witnesses show what happens outside it. XHTML values are those of the form the reader itself produces (content trees printed with the first declared prefix). The public unparse_xhtml_attribute_value, without caller in the program, prints the same (C33_public)."},
 {"property": "C34", "status": "proved", "theorems": ["ReqIF.C34_roundtrip", "ReqIF.exampleDefinitions_safe", "ReqIF.C34_ampersand", "ReqIF.C34_multi_valued", "ReqIF.C34_empty_default", "ReqIF.C34_xhtml_text", "ReqIF.C34_extra_child", "ReqIF.C34_no_reference", "ReqIF.C34_two_defaults", "ReqIF.C34_public", "ReqIF.C34_public_marked"], "note": "All seven kinds and all shapes of default value, in a document with any ordinary root tag. The conditions of SafeDefinition are the ones under which the code keeps the definition; the other theorems show definitions outside them that are lost, changed or refused. The public parse_xhtml_attribute_definition, without caller in the program, reads the same except for multi_valued (C34_public)."},
 {"property": "C35", "status": "proved", "theorems": ["ReqIF.C35_roundtrip", "ReqIF.exampleTypes_safe", "ReqIF.C35_ampersand", "ReqIF.C35_missing"], "note": "All four kinds, with any list of attribute definitions. Witnesses of the opposite: unescaped long names; types that are printed but cannot be read because a relation type needs a long name and a specification type a time stamp and named attribute definitions."},
 {"property": "C36", "status": "proved", "theorems": ["ReqIF.C36_roundtrip", "ReqIF.exampleObject_safe", "ReqIF.C36_ampersand", "ReqIF.C36_less", "ReqIF.C36_none", "ReqIF.C36_no_values"], "note": "Round trip in a document with any ordinary root tag, child order included. Witnesses: & or < in LONG-NAME or DESC is printed unescaped; an empty TYPE reference is printed as None; an object read without VALUES cannot be printed."},
 {"property": "C37", "status": "proved", "theorems": ["ReqIF.C37_roundtrip", "ReqIF.exampleRelation_safe", "ReqIF.C37_first_only", "ReqIF.C37_two_values", "ReqIF.C37_comment", "ReqIF.C37_enum_value"], "note": "Round trip in a document with any ordinary root tag, child order included. Witnesses: only the first value of a relation is kept; a comment child makes printing fail; an enumeration value is printed but cannot be read."},
 {"property": "C38", "status": "proved", "theorems": ["ReqIF.C38_roundtrip", "ReqIF.C38_level", "ReqIF.exampleHierarchy_safe", "ReqIF.C38_opposite"], "note": "Any depth and width, by mutual induction; in a document with any ordinary root tag. A node of level 0 is refused. Witnesses: an ampersand in LONG-NAME gives a document that is not well-formed; a level that does not fit the place comes back changed."},
 {"property": "C39", "status": "proved", "theorems": ["ReqIF.C39_roundtrip", "ReqIF.exampleSpecification_safe", "ReqIF.C39_two_children"], "note": "Round trip in a document with any ordinary root tag, child order included. Witness: of two CHILDREN elements the last one is read and printed twice."},
 {"property": "C40", "status": "proved", "theorems": ["ReqIF.C40_roundtrip", "ReqIF.C40_ampersand", "ReqIF.C40_empty"], "note": "Round trip in a document with any ordinary root tag; printing what was read gives the same text. Witnesses: an ampersand in LONG-NAME gives a document that is not well-formed; an empty reference comes back as absent."},
 {"property": "C41", "status": "proved", "theorems": ["ReqIF.C41_roundtrip", "ReqIF.C41_stable", "ReqIF.C41_refused", "ReqIF.C41_comment"], "note": "Round trip in a document with any ordinary root tag. A header is refused exactly when it has no identifier or an empty one. Witness: & in COMMENT gives a document that is not well-formed."},
 {"property": "C42", "status": "proved", "theorems": ["ReqIF.C42_roundtrip", "ReqIF.C42_ampersand", "ReqIF.C45_prefix_first"], "note": "Every safe bundle: all seven namespace fields and the captured text come back, for captured text and for fields. Opposite: unescaped & in a field; a prefix bound to the default namespace before it."},
 {"property": "C43", "status": "proved", "theorems": ["ReqIF.C43_roundtrip", "ReqIF.C43_nothing_inside"], "note": "Every safe bundle (SafeBundle: every item satisfies the safety condition of C32 to C41 and the root tag that of C42). Equality up to the links to XML nodes and the normalisations stated per item. Opposite: a bundle with nothing inside loses namespace fields."},
 {"property": "C44", "status": "proved", "theorems": ["ReqIF.C44_passthrough", "ReqIF.C44_changes"], "note": "Every safe bundle whose tag was captured or needs no character references and whose repository id is not empty; bytes and command on the file system. Opposite for the two excluded cases."},
 {"property": "C45", "status": "proved", "theorems": ["ReqIF.C45_wellformed", "ReqIF.C45_prefix_first", "ReqIF.C45_parsed_malformed", "ReqIF.C42_ampersand"], "note": "Every safe bundle. Opposite: documents that are parsed and written malformed."},
 {"property": "C46", "status": "proved", "theorems": ["ReqIF.C46_sorted", "ReqIF.C46_data_type", "ReqIF.C46_enum_value", "ReqIF.C46_object", "ReqIF.C46_relation", "ReqIF.C46_specification", "ReqIF.C46_object_type", "ReqIF.C46_relation_type", "ReqIF.C46_specification_type", "ReqIF.C46_group", "ReqIF.C46_hierarchy", "ReqIF.C46_definition", "ReqIF.C46_root"], "note": "The head theorems hold for every item without hypothesis (names in the printed text). C46_sorted is about the document read back from the output of a safe bundle: all elements without prefix below the root. The root tag itself is outside: printed from its fields it is not alphabetical (C46_root)."},
 {"property": "C47", "status": "proved", "theorems": ["ReqIF.C47_object_text", "ReqIF.C47_relation_text", "ReqIF.C47_specification_text", "ReqIF.C47_definition_text", "ReqIF.C47_object", "ReqIF.C47_relation", "ReqIF.C47_specification", "ReqIF.C47_definition", "ReqIF.C47_object_default", "ReqIF.C47_relation_default", "ReqIF.C47_specification_default", "ReqIF.C47_definition_default"], "note": "The _text theorems hold for every parsed item that is printed: one block per known child of the source element, in source order. The others state the same of the element read back from the output, for items that survive, and give the default order for items without a source element."},
 {"property": "C48", "status": "proved", "theorems": ["ReqIF.C48_value", "ReqIF.C48_step", "ReqIF.C48_stable", "ReqIF.C48_comment", "ReqIF.C48_attribute"], "note": "For values in documents with the customary root: the tree read back from the printed value has the content of the value, and printing and reading repeats with the same tree. Comments in the content and attributes with a namespace are the exceptions, shown as witnesses."},
 {"property": "C49", "status": "proved", "theorems": ["ReqIF.C49_document", "ReqIF.C49_tags", "ReqIF.C49_no_namespace", "ReqIF.C49_own_declaration", "ReqIF.C49_text_becomes_tag", "ReqIF.C49_attribute"], "note": "C49_document: for every document that can be parsed and whose root declares a prefix that is in use, for content whose top-level texts do not look like tags and whose attributes have no namespace. The three conditions are needed: witnesses beside the theorem. C49_tags: the same for one element."},
 {"property": "C50", "status": "proved", "theorems": ["ReqIF.C50_document", "ReqIF.C50_once", "ReqIF.C50_doubled", "ReqIF.C50_grows", "ReqIF.C50_passthrough", "ReqIF.C50_own_declaration"], "note": "C50_document: for every document that can be parsed and whose root declares a prefix that is in use. C50_once: for one element with a namespace in force. C50_doubled, C50_grows: without, top-level texts are printed twice. The witnesses show a document growing, also one with the schema's default namespace only."},
 {"property": "C51", "status": "proved", "theorems": ["ReqIF.C51_document", "ReqIF.C51_document_object", "ReqIF.C51_namespaced", "ReqIF.C51_balanced", "ReqIF.C51_plain", "ReqIF.C51_plain_balanced", "ReqIF.C51_object", "ReqIF.C51_namespaced_object"], "note": "Stated with a small tokenizer (Spec/Markup). C51_document, C51_document_object: for every document that can be parsed, under the conditions of C50 and C49."},
 {"property": "C52", "status": "proved", "theorems": ["ReqIF.C52_replaced"], "note": "Printing (lxml tostring) is an arbitrary function of the resulting tree. Documents without default namespace or with an empty header comment or title are refused (anonymize_noNamespace, anonymize_emptyComment)."},
 {"property": "C53", "status": "proved", "theorems": ["ReqIF.C53_function", "ReqIF.C53_consistent"], "note": "C53_function holds for every accepted document; in C53_consistent no XHTML value contains another covered string (the command replaces inner strings before it prints the value)."},
 {"property": "C54", "status": "proved", "theorems": ["ReqIF.C54_collision", "ReqIF.C54_unique"], "note": "C54_collision refutes the README's claim for every hash function (pigeonhole); C54_unique gives the condition under which it holds."},
 {"property": "C55", "status": "proved", "theorems": ["ReqIF.C55_rest"], "note": "The trees before and after are equal once every covered string is replaced by a star."},
 {"property": "C56", "status": "proved", "theorems": ["ReqIF.C56_heading", "ReqIF.C56_accepts", "ReqIF.C56_fields"], "note": ""},
 {"property": "C57", "status": "proved", "theorems": ["ReqIF.C57_unique_names", "ReqIF.C57_kept"], "note": "A definition is kept under its identifier; of several with the same identifier the last one counts, at the place of the first."},
 {"property": "C58", "status": "proved", "theorems": ["ReqIF.C58_definition_flags", "ReqIF.C58_hierarchy_flags", "ReqIF.C58_definition_printed", "ReqIF.C58_hierarchy_printed"], "note": ""},
 {"property": "C59", "status": "proved", "theorems": ["ReqIF.C59_passthrough", "ReqIF.C59_passthrough_exit", "ReqIF.C59_anonymize", "ReqIF.C59_anonymize_exit"], "note": "A failure of the operating system in the middle of writing the output file is not modelled."},
 {"property": "C60", "status": "proved", "theorems": ["ReqIF.C60_document", "ReqIF.C60_written", "ReqIF.C60_containers", "ReqIF.C60_values", "ReqIF.C60_spec_object", "ReqIF.C60_specification"], "note": "C60_document is about two document texts whose trees are equal after `tidy` (Spec/Comments) has removed comments from SPEC-TYPES, SPEC-OBJECTS and VALUES; the bundles are equal but for the source elements that objects and specifications remember, and failures are equal. C60_written: the written documents are equal. The other theorems are about single elements."},
 {"property": "C61", "status": "proved", "theorems": ["ReqIF.C61_parses", "ReqIF.C61_dialects", "ReqIF.C61_relation_type", "ReqIF.C61_specification_type", "ReqIF.C61_integer_default", "ReqIF.C61_real_default", "ReqIF.C61_boolean_default", "ReqIF.C61_date_default", "ReqIF.C61_string_default", "ReqIF.C61_xhtml_default", "ReqIF.C61_enumeration_default", "ReqIF.C61_own_namespace", "ReqIF.C61_enumeration_value", "ReqIF.C61_relation_real", "ReqIF.C61_relation_boolean", "ReqIF.C61_relation_date", "ReqIF.C61_relation_enumeration", "ReqIF.C61_prefix", "ReqIF.C61_comment"], "note": "Proved for the dialect `parse` of the schema; each of its additions is shown necessary by a witness (valid in `xsd`, refused)."},
 {"property": "C62", "status": "proved", "theorems": ["ReqIF.C62_prints", "ReqIF.C62_lenient", "ReqIF.C62_definition_alternative", "ReqIF.C62_relation_alternative", "ReqIF.C62_no_values", "ReqIF.C62_loses_alternative", "ReqIF.C62_loses_editable", "ReqIF.C62_loses_description", "ReqIF.C62_boolean", "ReqIF.C62_loses_original"], "note": "Proved for the dialect `write`, and without the requirements of the schema that parser and unparser do not need (`lenient`); witnesses for each addition and for content lost on printing."},
 {"property": "C63", "status": "proved", "theorems": ["ReqIF.Xsd.C63_roundtrip", "ReqIF.Xsd.C63_valid", "ReqIF.Xsd.C63_stable", "ReqIF.Xsd.C63_malformed", "ReqIF.Xsd.C63_changed"], "note": "Hypotheses are decidable conditions on the document text (validRoot .lenient, which follows from validRoot .write, noSpecials, plainDocument, an element below the root). The opposites show valid documents outside the class that are written malformed or changed."},
 {"property": "C64", "status": "proved", "theorems": ["ReqIF.C64_page", "ReqIF.C64_succeeds", "ReqIF.C64_failure", "ReqIF.C64_validated", "ReqIF.C64_command", "ReqIF.C64_no_data_types", "ReqIF.C64_dangling", "ReqIF.C64_injection"], "note": "C64_page reads the page text with an independent scanner (Spec/Dump: elements) and needs that no shown string contains the end tag of its own cell or heading; C64_injection shows that without this the page is altered, because nothing is escaped. C64_succeeds characterises when there is a page; C64_no_data_types: a valid document without DATATYPES makes the command raise."},
 {"property": "C65", "status": "proved", "theorems": ["ReqIF.C65_report", "ReqIF.C65_not_parsed", "ReqIF.C65_strict", "ReqIF.C65_pi"], "note": "C65_report needs a default namespace or a document without processing instructions; C65_pi shows that otherwise describing the issue raises ValueError. Texts of other libraries are parameters; the text following a quoted element is left out."},
 {"property": "C66", "status": "proved", "theorems": ["ReqIF.Xsd.C66_content", "ReqIF.Xsd.C66_passthrough", "ReqIF.Xsd.C66_elements", "ReqIF.Xsd.C66_values", "ReqIF.Xsd.C66_attributes"], "note": "Input and output documents are compared as trees (Spec/Said); attributes of the root tag are covered by C63. Witnesses show that each kind of excluded content is lost."},
 {"property": "C67", "status": "proved", "theorems": ["ReqIF.Format.C67_content", "ReqIF.Format.C67_stable", "ReqIF.Format.C67_layout", "ReqIF.Format.C67_command", "ReqIF.Format.C67_succeeds", "ReqIF.Format.C67_twice", "ReqIF.Format.C67_adds_space", "ReqIF.Format.C67_loses_space", "ReqIF.Format.C67_comment", "ReqIF.Format.C67_name", "ReqIF.Format.C67_cdata"], "note": "The theorems hold for every answer of libxml2 about white space next to words. Witnesses: words that touch are put apart, words that are apart may touch, comments that are not ASCII are changed, names that are not ASCII make the output malformed, empty CDATA sections make two runs differ."},
 {"property": "C68", "status": "proved", "theorems": ["ReqIF.C68_text", "ReqIF.C68_succeeds", "ReqIF.C68_roundtrip", "ReqIF.C68_object", "ReqIF.C68_comment"], "note": "The HTML parser is a parameter. Read back from a document whose first prefix in use is the one asked for. Witnesses: an empty object changes its string, comments are refused."},
 {"property": "C69", "status": "proved", "theorems": ["ReqIF.Cli.C69_files", "ReqIF.Cli.C69_validate", "ReqIF.Cli.C69_version", "ReqIF.Cli.C69_help", "ReqIF.Cli.C69_usage", "ReqIF.Cli.C69_one", "ReqIF.Cli.C69_success", "ReqIF.Cli.C69_failure", "ReqIF.Cli.C69_only", "ReqIF.Cli.C69_validate_exit", "ReqIF.Cli.C69_codes", "ReqIF.Cli.C69_any"], "note": "argparse is modelled with abbreviated and misused options. Left out is what versions of Python do not treat alike: --, --=x, -hx and negative numbers; for these C69_any says that, whatever the call is taken for, only its output file can change. Failures in the middle of writing the output are not modelled."},
 {"property": "C70", "status": "proved", "theorems": ["ReqIF.C70_now", "ReqIF.C70_fails", "ReqIF.C70_offset", "ReqIF.C70_seconds", "ReqIF.C70_unknown"], "note": "The clock, time.timezone, time.altzone and tm_isdst are parameters; datetime.now is modelled by Python's calendar. Witnesses: an offset with seconds gives a string without a sign; an unknown state of summer time counts as summer time."},
 {"property": "C71", "status": "proved", "theorems": ["ReqIF.Xsd.C71_content", "ReqIF.Xsd.C71_passthrough", "ReqIF.Xsd.C71_kept"], "note": "Exact content of the output for every plain document, against Spec/Written; C66 is the case in which nothing is lost."},
 {"property": "C72", "status": "proved", "theorems": ["ReqIF.Xsd.C72_valid", "ReqIF.Xsd.C72_passthrough", "ReqIF.Xsd.C72_kept", "ReqIF.Xsd.C72_losses", "ReqIF.Xsd.C72_default", "ReqIF.Xsd.C72_header", "ReqIF.Xsd.C72_group"], "note": "Validity in the sense of Spec/Xsd (no identity constraints, XHTML by namespace only). An equivalence: the code does write invalid documents for some valid ones, and C72_default, C72_header, C72_group are witnesses."},
 {"property": "C73", "status": "proved", "theorems": ["ReqIF.C73_text", "ReqIF.C73_file", "ReqIF.C73_output", "ReqIF.C73_output_file", "ReqIF.C73_safe", "ReqIF.C73_malformed"], "note": "The reader is a push automaton: once the root is closed, more input can only add comments, processing instructions and white space after it. C73_malformed shows that the condition (the whole is well-formed) is needed."},
 {"property": "C74", "status": "proved", "theorems": ["ReqIF.Cli.C74_interrupted", "ReqIF.Cli.C74_completed", "ReqIF.Cli.C74_again", "ReqIF.Cli.C74_noticed", "ReqIF.Cli.C74_in_place"], "note": "Model/Disk: writing takes one step per byte after the one that empties the file; C74_completed ties it to the commands of Model/Commands. C74_in_place is the case in which the code loses the document. Buffers of the operating system and reordered writes are not modelled."},
 {"property": "C75", "status": "proved", "theorems": ["ReqIF.Xsd.C75_entries", "ReqIF.Xsd.C75_integrity", "ReqIF.Xsd.C75_valid", "ReqIF.Xsd.C75_passthrough", "ReqIF.Xsd.C75_editable_lost", "ReqIF.Xsd.C75_dangling_lost"], "note": "For plain documents (hypotheses of C71). Identifiers and references inside XHTML, header fields, alternative identifiers and tool extensions are not looked at. Which references may get lost: those in EDITABLE-ATTS, DEFINITION, VALUES, SOURCE-SPECIFICATION, TARGET-SPECIFICATION; exactly which ones is C71 (writtenRoot)."},
 {"property": "C76", "status": "proved", "theorems": ["ReqIF.C76_archive", "ReqIF.C76_content", "ReqIF.C76_again"], "note": "The zip container is the list of its members; C76_content and C76_again need that reading what was written gives the members back (a hypothesis on the zip library for the archive in question). Time stamps, permissions and compression of members are not modelled."},
 {"property": "C77", "status": "proved", "theorems": ["ReqIF.C77_pieces", "ReqIF.C77_local", "ReqIF.C77_header", "ReqIF.C77_object", "ReqIF.C77_string", "ReqIF.C77_edit", "ReqIF.C77_lookup", "ReqIF.Xsd.C77_document", "ReqIF.Xsd.C77_set_string", "ReqIF.Xsd.C77_appended", "ReqIF.C77_hierarchy", "ReqIF.C77_specification", "ReqIF.C77_tree", "ReqIF.Xsd.C77_set_tree"], "note": "A list of values or of children that becomes empty is excluded where the empty list is printed in another form. C77_appended is the witness that an appended object is not found through the lookup before writing and reading."},
 {"property": "C78", "status": "proved", "theorems": ["ReqIF.Format.C78_succeeds", "ReqIF.Format.C78_read", "ReqIF.Format.C78_exact", "ReqIF.Format.C78_tail", "ReqIF.Format.C78_declared", "ReqIF.Format.C78_html", "ReqIF.Format.C78_roundtrip", "ReqIF.Format.C78_words", "ReqIF.Format.C78_attribute", "ReqIF.Format.C78_instruction"], "note": "lxml's tostring for an output of type str is modelled (Model/FromXhtml). Texts must not be empty strings (which the reader gives only for an empty CDATA section). C78_words, C78_attribute and C78_instruction are witnesses of what is excluded."},
 {"property": "C79", "status": "proved", "theorems": ["ReqIF.Grammar.C79_tree", "ReqIF.Grammar.C79_unique", "ReqIF.Grammar.C79_refused", "ReqIF.Grammar.C79_same", "ReqIF.Grammar.C79_end_tag", "ReqIF.Grammar.C79_repeated", "ReqIF.Grammar.C79_refused_cases", "ReqIF.Grammar.C79_char", "ReqIF.Grammar.C79_space", "ReqIF.Grammar.C79_nameStart", "ReqIF.Grammar.C79_nameChar", "ReqIF.Grammar.C79_ncname", "ReqIF.Grammar.C79_qname"], "note": "Spec/Grammar and Spec/Namespaces are the productions, as inductive predicates on texts; they do not use the reader. The character classes and the definition of a qualified name (Xml/Chars) are shared with the reader; the theorems C79_char to C79_qname compare them with the tables of the recommendations (Spec/Chars). That libxml2 follows these productions is part of the trusted contract."},
 {"property": "C80", "status": "proved", "theorems": ["ReqIF.Spec.C80_utf8", "ReqIF.Spec.C80_ascii", "ReqIF.Spec.C80_us_ascii", "ReqIF.Spec.C80_latin1", "ReqIF.Spec.C80_garbled", "ReqIF.Spec.C80_file_refused", "ReqIF.Spec.C80_file_latin1", "ReqIF.Spec.C80_altered", "ReqIF.Spec.C80_other"], "note": "Model/Encoding goes through the bytes; the other properties take the text itself, and C80_utf8 says when this is the same. Codecs other than UTF-8, ISO-8859-1 and ASCII are a parameter. C80_altered is the witness of the altered text."},
 {"property": "C81", "status": "proved", "theorems": ["ReqIF.Debug.C81_any", "ReqIF.Debug.C81_local", "ReqIF.Debug.C81_read", "ReqIF.Debug.C81_object", "ReqIF.Debug.C81_quotes"], "note": "The text of a float is a parameter; objects are cells of a heap. C81_quotes is the witness for strings with quotation marks."},
 {"property": "C82", "status": "proved", "theorems": ["ReqIF.Output.C82_text", "ReqIF.Output.C82_bundle", "ReqIF.Output.C82_failed", "ReqIF.Output.C82_created", "ReqIF.Output.C82_passthrough", "ReqIF.Output.C82_archive", "ReqIF.Xsd.C82_valid", "ReqIF.Output.C82_reported", "ReqIF.Output.C82_program", "ReqIF.Output.C82_silent", "ReqIF.Output.C82_reported_too"], "note": "The unparser is modelled a second time with its log; C82_text says the two agree. Texts of help and usage are not modelled. C82_silent is the witness of losses without a warning."},
 {"property": "C83", "status": "proved", "theorems": ["ReqIF.C83_number", "ReqIF.C83_document", "ReqIF.C83_refused", "ReqIF.C83_printed", "ReqIF.C83_rewritten"], "note": "Digits of other scripts, which Python accepts too, are left out of the model. C83_rewritten is a witness that the spelling is not kept."},
 {"property": "C84", "status": "proved", "theorems": ["ReqIF.Xsd.C84_valid", "ReqIF.Xsd.C84_default", "ReqIF.Xsd.C84_plain_default"], "note": "Completeness is stated item by item in Spec/Complete. Bundles outside of SafeBundle (texts that the unparser does not escape) are the subject of C43 and C46."},
 {"property": "C85", "status": "proved", "theorems": ["ReqIF.C85_page", "ReqIF.C85_simple", "ReqIF.C85_bundle", "ReqIF.C85_unescaped"], "note": "Spec/Page names the strings and what a cell of a tree holds; well-formedness is that of Spec/Grammar, which does not use the reader. Namespaces are not resolved: XHTML values keep prefixes that the page does not declare. jinja2 is trusted to insert values as str() gives them."},
 {"property": "C86", "status": "proved", "theorems": ["ReqIF.C86_arrangement", "ReqIF.C86_kept", "ReqIF.C86_turned", "ReqIF.C86_enumeration", "ReqIF.C86_enumeration_default"], "note": "At every depth. The parser remembers one bit per node, so a comment or EDITABLE-ATTS beside OBJECT, CHILDREN turns the order around (C86_turned)."},
 {"property": "C87", "status": "proved", "theorems": ["ReqIF.C87_document", "ReqIF.C87_format", "ReqIF.C87_xhtml", "ReqIF.C87_reference"], "note": "The source elements a bundle remembers are compared without this text. C87_xhtml: formatting changes XHTML values. C87_reference: text inside an element without children is not spacing."},
 {"property": "C88", "status": "proved", "theorems": ["ReqIF.C88_read", "ReqIF.C88_namespaces", "ReqIF.C88_tree", "ReqIF.C88_values", "ReqIF.C88_accuracy"], "note": "Spec/Accepted.lean lists the requirements on the tree; C88_read is an equivalence for all texts, C88_namespaces and C88_tree say which tree it is, C88_values that attribute values and texts do not matter."},
 {"property": "C89", "status": "proved", "theorems": ["ReqIF.C89_written", "ReqIF.C89_again", "ReqIF.C89_passes", "ReqIF.C89_by_hand", "ReqIF.C89_object", "ReqIF.C89_relation", "ReqIF.C89_default", "ReqIF.C89_empty_root"], "note": "Spec/Writable.lean lists the requirements on bundles and on trees; C89_written is an equivalence for all bundles, C89_again and C89_passes are equivalences for all documents; C89_object, C89_relation, C89_default and C89_empty_root are documents that are read but cannot be written."},
 {"property": "C90", "status": "proved", "theorems": ["ReqIF.Cli.C90_passthrough", "ReqIF.Cli.C90_archive", "ReqIF.Cli.C90_anonymize", "ReqIF.Cli.C90_dump", "ReqIF.Cli.C90_format", "ReqIF.Cli.C90_validate", "ReqIF.Cli.C90_empty_comment", "ReqIF.Cli.C90_value_comment"], "note": "Equivalences for the exit code 0 of every command, in terms of requirements on the input and the output; two kinds of valid documents that anonymize refuses."},
 {"property": "C91", "status": "proved", "theorems": ["ReqIF.Cli.C91_others", "ReqIF.Cli.C91_result", "ReqIF.Cli.C91_ends", "ReqIF.Cli.C91_meanwhile", "ReqIF.Cli.C91_order", "ReqIF.Cli.C91_torn", "ReqIF.Cli.C91_same_output"], "note": "Model/Together: runs as processes with one step per byte, reading included, and writes at the run's own position. The plan of a process is that of Model/Disk, which C74 ties to Model/Commands. C91_torn and C91_same_output are the cases in which runs disturb each other. Opening and looking for the input are one step; archives are read front to back."},
 {"property": "C92", "status": "proved", "theorems": ["ReqIF.C92_document", "ReqIF.C92_layout", "ReqIF.C92_xhtml", "ReqIF.C92_root"], "note": "Reordered (Spec/Reorder) relates the two trees; source elements a bundle remembers are compared with their attributes sorted. C92_xhtml and C92_root: where the order is kept."},
 {"property": "C93", "status": "proved", "theorems": ["ReqIF.C93_prefixes", "ReqIF.C93_same_root", "ReqIF.C93_refused", "ReqIF.C93_malformed"], "note": "Renamed (Spec/Renamed) relates the two trees. C93_refused: valid documents with prefixes only cannot be read. C93_malformed: a root with a prefix beside another default namespace is printed with an end tag of its own."},
 {"property": "C94", "status": "proved", "theorems": ["ReqIF.C94_references", "ReqIF.C94_valid", "ReqIF.C94_read", "ReqIF.C94_contents", "ReqIF.C94_refused"], "note": "C94_contents refines the validator of Spec/Xsd by the content model of XHTML-CONTENT (Spec/Anonymous). C94_refused is a finding: anonymized documents that cannot be parsed, for every hash function."},
 {"property": "C95", "status": "proved", "theorems": ["ReqIF.C95_page", "ReqIF.C95_issues", "ReqIF.C95_layout", "ReqIF.C95_prefixes", "ReqIF.C95_format", "ReqIF.C95_passthrough", "ReqIF.Cli.C95_commands", "ReqIF.C95_changed"], "note": "C95_changed is the opposite for a valid document with a tab in a string. Issues are compared without the elements they quote and without those about the XML declaration."},
 {"property": "C96", "status": "proved", "theorems": ["ReqIF.C96_read", "ReqIF.C96_both", "ReqIF.C96_clear"], "note": "C96_clear is the opposite for a prefixed document with another default namespace. The comparison leaves out source elements and the XML declaration."},
 {"property": "C97", "status": "proved", "theorems": ["ReqIF.C97_same", "ReqIF.C97_not_unique"], "note": "For documents in which no XHTML value holds another covered string. That hash values do not tell their strings is a property of SHA-256 and outside the model."},
 {"property": "C98", "status": "proved", "theorems": ["ReqIF.C98_passthrough", "ReqIF.C98_too_deep", "ReqIF.C98_accepted", "ReqIF.C98_exact", "ReqIF.C98_opposite", "ReqIF.C98_stack", "ReqIF.C98_stack_exact"], "note": "That hierarchies are written deeper than they can be read is a finding. The limit of the reader is a parameter; the stack counts the calls of the recursive functions, not the frames below and above them."},
 {"property": "C99", "status": "proved", "theorems": ["ReqIF.C99_bound", "ReqIF.C99_cubic", "ReqIF.C99_quadratic"], "note": "That the output can grow with the cube of the document is a finding: children of a specification are printed once for each CHILDREN element. Lengths are counted in characters."},
 {"property": "C100", "status": "proved", "theorems": ["ReqIF.Build.C100_tree", "ReqIF.Build.C100_acyclic", "ReqIF.Build.C100_printed", "ReqIF.Build.C100_walk", "ReqIF.Build.C100_add", "ReqIF.Build.C100_refused", "ReqIF.Build.C100_frame", "ReqIF.Build.C100_built", "ReqIF.Build.C100_parsed", "ReqIF.Build.C100_mark", "ReqIF.Build.C100_cycle", "ReqIF.Build.C100_list"], "note": "Findings: a refused add_child leaves a mark that is printed (C100_mark); without the condition on lists given to the constructor a node can become its own descendant and iteration does not end (C100_cycle), and two nodes can share later children (C100_list). Direct assignments to the fields of a node are not among the calls."},
 {"property": "C101", "status": "proved", "theorems": ["ReqIF.C101_document", "ReqIF.C101_layout", "ReqIF.C101_shown", "ReqIF.C101_read", "ReqIF.C101_written", "ReqIF.C101_hierarchy"], "note": "The texts written for the two documents may differ: they follow the order in which a document was read (C101_written). A hierarchy node remembers whether its object comes before its children (C101_hierarchy). What is shown of the documents by the commands is the same (C101_shown)."},
 {"property": "C102", "status": "proved", "theorems": ["ReqIF.Build.C102_changed", "ReqIF.Build.C102_ends", "ReqIF.Build.C102_idle", "ReqIF.Build.C102_late"], "note": "Finding: a child added to a node above the current one is not yielded although it comes later in the hierarchy (C102_late). Changes are calls of the constructor and of add_child; removal of children by direct access to the list is not among them."},
 {"property": "C103", "status": "proved", "theorems": ["ReqIF.Cells.C103_lists", "ReqIF.Cells.C103_set", "ReqIF.Cells.C103_written", "ReqIF.Cells.C103_parsed", "ReqIF.Cells.C103_appended", "ReqIF.Cells.C103_twins"], "note": "Findings: an attribute appended to the list of an object is not in its attribute_map (C103_appended); of two objects with the same identifier only the last can be reached through the lookup (C103_twins). Changing identifiers or references of objects, and sharing an attribute object between lists, are not among the edits."},
 {"property": "C104", "status": "proved", "theorems": ["ReqIF.Rename.C104_document", "ReqIF.Rename.C104_lookup", "ReqIF.Rename.C104_iterate", "ReqIF.Rename.C104_validate", "ReqIF.Rename.C104_valid", "ReqIF.Rename.C104_injective"], "note": "The function is applied to white space between elements and to comments and processing instructions of the content as well (a comment in front of a reference is read as the reference); it may leave white space alone. XHTML values and the header are the same in both documents. The function has to be injective (C104_injective)."},
 {"property": "C105", "status": "proved", "theorems": ["ReqIF.Items.C105_together", "ReqIF.Items.C105_objects", "ReqIF.Items.C105_validated", "ReqIF.Items.C105_neighbour"], "note": "Finding (C105_neighbour): the XHTML value of an object depends on whether another object uses the prefix that the root declares; this is why the two lists have to use the same declarations. C105_validated: added objects never make validation report more."},
 {"property": "C106", "status": "proved", "theorems": ["ReqIF.C106_conversion", "ReqIF.C106_exactly", "ReqIF.C106_gap", "ReqIF.C106_parsed", "ReqIF.C106_on_top", "ReqIF.C106_silently"], "note": "Completes C16: its condition is a special case (C106_on_top). Finding (C106_silently): a gap need not raise, a node can silently be handed the wrong section."},
 {"property": "C107", "status": "proved", "theorems": ["ReqIF.C107_document", "ReqIF.C107_layout", "ReqIF.C107_shown", "ReqIF.C107_dropped", "ReqIF.C107_read", "ReqIF.C107_case"], "note": "Attributes in a namespace are excluded: their prefixes keep namespace declarations in use (see C105_neighbour). The attributes of the root element are remembered as written. Names are compared with their case (C107_case)."},
 {"property": "C108", "status": "proved", "theorems": ["ReqIF.C108_read", "ReqIF.C108_part", "ReqIF.C108_again", "ReqIF.C108_written", "ReqIF.C108_break"], "note": "C108_break: a line break inside a printed reference stays where it is, so the lines are then not all moved."},
 {"property": "C109", "status": "proved", "theorems": ["ReqIF.C109_lists", "ReqIF.C109_groups", "ReqIF.C109_lookups", "ReqIF.C109_parents", "ReqIF.C109_validated", "ReqIF.C109_accepted", "ReqIF.C109_documents", "ReqIF.C109_written", "ReqIF.C109_repeated"], "note": "C109_accepted: of two documents that differ in the order of items, both are parsed or none; which exception is raised can depend on the order. C109_documents: the step from the documents as written to the content elements that the other theorems are about. C109_repeated: of objects with the same identifier the last is found, so there the order decides."}
]}
