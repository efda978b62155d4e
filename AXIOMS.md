# Axioms per theorem

Output of `#print axioms` for every theorem named in `MANIFEST.json`.

| property | theorem | axioms |
|---|---|---|
| C01 | `ReqIF.Props.C01_attr` | propext, Classical.choice, Quot.sound |
| C01 | `ReqIF.Props.C01_text` | propext, Classical.choice, Quot.sound |
| C01 | `ReqIF.C01_public` | propext, Classical.choice, Quot.sound |
| C02 | `ReqIF.Props.C02_no_markup` | propext, Quot.sound |
| C02 | `ReqIF.Props.C02_refs` | propext, Quot.sound |
| C02 | `ReqIF.Props.C02_charwise` | propext, Quot.sound |
| C03 | `ReqIF.C03_attr` | propext, Classical.choice, Quot.sound |
| C03 | `ReqIF.C03_spaces` | propext, Classical.choice, Quot.sound |
| C04 | `ReqIF.C04_text` | propext, Classical.choice, Quot.sound |
| C04 | `ReqIF.C04_title` | propext, Classical.choice, Quot.sound |
| C04 | `ReqIF.C04_markup` | propext |
| C05 | `ReqIF.Props.C05_unindent_indent` | propext, Classical.choice, Quot.sound |
| C05 | `ReqIF.Props.C05_stripped_exists_unique` | propext, Quot.sound |
| C06 | `ReqIF.Props.C06_indent_shape` | propext, Quot.sound |
| C06 | `ReqIF.Props.joinLines_lines` | propext, Quot.sound |
| C07 | `ReqIF.C07_format` | propext, Classical.choice, Quot.sound |
| C07 | `ReqIF.C07_other_shape` | propext, Classical.choice, Quot.sound |
| C08 | `ReqIF.C08_parse_calls` | propext, Quot.sound |
| C08 | `ReqIF.C08_recorded` | propext, Quot.sound |
| C09 | `ReqIF.C09_transparent` | propext, Classical.choice, Quot.sound |
| C10 | `ReqIF.C10_unparse_calls` | propext, Quot.sound |
| C11 | `ReqIF.C11_calls_on_failure` | propext, Quot.sound |
| C12 | `ReqIF.C12_parse` | propext, Classical.choice, Quot.sound |
| C12 | `ReqIF.C12_parse_failure` | propext, Classical.choice, Quot.sound |
| C12 | `ReqIF.C12_unparse` | propext, Quot.sound |
| C13 | `ReqIF.C13_preorder` | propext, Quot.sound |
| C13 | `ReqIF.C13_count` | propext, Quot.sound |
| C14 | `ReqIF.C14_agree` | propext, Quot.sound |
| C15 | `ReqIF.C15_levels` | propext, Quot.sound |
| C16 | `ReqIF.C16_conversion` | propext, Quot.sound |
| C16 | `ReqIF.C16_buried_section` | propext, Quot.sound |
| C17 | `ReqIF.C17_add_child` | none |
| C17 | `ReqIF.C17_add_child_levels` | propext, Quot.sound |
| C17 | `ReqIF.C17_refuses_level_zero` | propext, Quot.sound |
| C17 | `ReqIF.C17_indentation` | propext, Quot.sound |
| C17 | `ReqIF.C17_every_node` | propext, Quot.sound |
| C18 | `ReqIF.C18_spec_objects` | propext, Quot.sound |
| C19 | `ReqIF.C19_parents` | propext, Classical.choice, Quot.sound |
| C19 | `ReqIF.C19_no_content` | propext, Quot.sound |
| C20 | `ReqIF.C20_type_by_ref` | propext, Classical.choice, Quot.sound |
| C21 | `ReqIF.C21_maps` | propext, Quot.sound |
| C21 | `ReqIF.C21_keys` | propext, Quot.sound |
| C22 | `ReqIF.C22_types` | propext, Quot.sound |
| C23 | `ReqIF.C23_missing_ends` | propext, Quot.sound |
| C23 | `ReqIF.C23_not_fatal` | propext, Quot.sound |
| C24 | `ReqIF.C24_causes` | propext, Quot.sound |
| C24 | `ReqIF.C24_xml_error` | propext, Quot.sound |
| C24 | `ReqIF.C24_reqif_root` | propext, Quot.sound |
| C24 | `ReqIF.C24_pi_first` | propext |
| C25 | `ReqIF.C25_only_reqifz` | propext, Classical.choice, Quot.sound |
| C25 | `ReqIF.C25_fails_iff` | propext, Classical.choice, Quot.sound |
| C26 | `ReqIF.C26_empty_root` | propext, Quot.sound |
| C26 | `ReqIF.C26_round_trip` | propext, Classical.choice, Quot.sound |
| C26 | `ReqIF.C26_no_namespace` | propext |
| C27 | `ReqIF.C27_exit_code` | propext, Classical.choice, Quot.sound |
| C27 | `ReqIF.C27_no_input` | propext, Classical.choice, Quot.sound |
| C28 | `ReqIF.C28_semantic_issues` | propext, Classical.choice, Quot.sound |
| C29 | `ReqIF.C29_restored` | none |
| C29 | `ReqIF.C29_command` | propext, Classical.choice, Quot.sound |
| C30 | `ReqIF.C30_roundtrip` | propext, Classical.choice, Quot.sound |
| C30 | `ReqIF.C30_bundles` | propext, Classical.choice, Quot.sound |
| C30 | `ReqIF.C30_other_name` | propext, Classical.choice, Quot.sound |
| C30 | `ReqIF.C30_attachment_name` | propext, Classical.choice, Quot.sound |
| C31 | `ReqIF.C31_names` | propext, Quot.sound |
| C31 | `ReqIF.C31_members` | propext, Classical.choice, Quot.sound |
| C32 | `ReqIF.C32_roundtrip` | propext, Classical.choice, Quot.sound |
| C32 | `ReqIF.C32_equal` | propext, Classical.choice, Quot.sound |
| C32 | `ReqIF.C32_ampersand` | propext |
| C32 | `ReqIF.C32_entity` | propext |
| C32 | `ReqIF.C32_quote` | propext |
| C32 | `ReqIF.C32_selfClosed` | propext |
| C32 | `ReqIF.C32_newline` | propext |
| C33 | `ReqIF.C33_roundtrip` | propext, Classical.choice, Quot.sound |
| C33 | `ReqIF.C33_enum_order` | propext, Quot.sound |
| C33 | `ReqIF.exampleValues_safe` | propext |
| C33 | `ReqIF.C33_quote` | propext |
| C33 | `ReqIF.C33_none` | propext |
| C33 | `ReqIF.C33_tab` | propext |
| C33 | `ReqIF.C33_wrong_prefix` | propext |
| C33 | `ReqIF.C33_no_namespace` | propext |
| C33 | `ReqIF.C33_public` | propext |
| C34 | `ReqIF.C34_roundtrip` | propext, Classical.choice, Quot.sound |
| C34 | `ReqIF.exampleDefinitions_safe` | propext |
| C34 | `ReqIF.C34_ampersand` | propext |
| C34 | `ReqIF.C34_multi_valued` | propext |
| C34 | `ReqIF.C34_empty_default` | propext |
| C34 | `ReqIF.C34_xhtml_text` | propext |
| C34 | `ReqIF.C34_extra_child` | propext |
| C34 | `ReqIF.C34_no_reference` | propext |
| C34 | `ReqIF.C34_two_defaults` | propext |
| C34 | `ReqIF.C34_public` | propext, Quot.sound |
| C34 | `ReqIF.C34_public_marked` | propext |
| C35 | `ReqIF.C35_roundtrip` | propext, Classical.choice, Quot.sound |
| C35 | `ReqIF.exampleTypes_safe` | propext |
| C35 | `ReqIF.C35_ampersand` | propext |
| C35 | `ReqIF.C35_missing` | propext |
| C36 | `ReqIF.C36_roundtrip` | propext, Classical.choice, Quot.sound |
| C36 | `ReqIF.exampleObject_safe` | propext |
| C36 | `ReqIF.C36_ampersand` | propext |
| C36 | `ReqIF.C36_less` | propext |
| C36 | `ReqIF.C36_none` | propext |
| C36 | `ReqIF.C36_no_values` | propext |
| C37 | `ReqIF.C37_roundtrip` | propext, Classical.choice, Quot.sound |
| C37 | `ReqIF.exampleRelation_safe` | propext |
| C37 | `ReqIF.C37_first_only` | propext |
| C37 | `ReqIF.C37_two_values` | propext |
| C37 | `ReqIF.C37_comment` | propext |
| C37 | `ReqIF.C37_enum_value` | propext |
| C38 | `ReqIF.C38_roundtrip` | propext, Classical.choice, Quot.sound |
| C38 | `ReqIF.C38_level` | none |
| C38 | `ReqIF.exampleHierarchy_safe` | none |
| C38 | `ReqIF.C38_opposite` | propext |
| C39 | `ReqIF.C39_roundtrip` | propext, Classical.choice, Quot.sound |
| C39 | `ReqIF.exampleSpecification_safe` | propext |
| C39 | `ReqIF.C39_two_children` | propext |
| C40 | `ReqIF.C40_roundtrip` | propext, Classical.choice, Quot.sound |
| C40 | `ReqIF.C40_ampersand` | propext |
| C40 | `ReqIF.C40_empty` | propext |
| C41 | `ReqIF.C41_roundtrip` | propext, Classical.choice, Quot.sound |
| C41 | `ReqIF.C41_stable` | propext, Quot.sound |
| C41 | `ReqIF.C41_refused` | propext |
| C41 | `ReqIF.C41_comment` | propext |
| C42 | `ReqIF.C42_roundtrip` | propext, Classical.choice, Quot.sound |
| C42 | `ReqIF.C42_ampersand` | propext |
| C42 | `ReqIF.C45_prefix_first` | propext |
| C43 | `ReqIF.C43_roundtrip` | propext, Classical.choice, Quot.sound |
| C43 | `ReqIF.C43_nothing_inside` | propext |
| C44 | `ReqIF.C44_passthrough` | propext, Classical.choice, Quot.sound |
| C44 | `ReqIF.C44_changes` | propext |
| C45 | `ReqIF.C45_wellformed` | propext, Classical.choice, Quot.sound |
| C45 | `ReqIF.C45_prefix_first` | propext |
| C45 | `ReqIF.C45_parsed_malformed` | propext |
| C45 | `ReqIF.C42_ampersand` | propext |
| C46 | `ReqIF.C46_sorted` | propext, Classical.choice, Quot.sound |
| C46 | `ReqIF.C46_data_type` | propext, Quot.sound |
| C46 | `ReqIF.C46_enum_value` | propext, Quot.sound |
| C46 | `ReqIF.C46_object` | propext, Quot.sound |
| C46 | `ReqIF.C46_relation` | propext, Quot.sound |
| C46 | `ReqIF.C46_specification` | propext, Quot.sound |
| C46 | `ReqIF.C46_object_type` | propext, Quot.sound |
| C46 | `ReqIF.C46_relation_type` | propext, Quot.sound |
| C46 | `ReqIF.C46_specification_type` | propext, Quot.sound |
| C46 | `ReqIF.C46_group` | propext, Quot.sound |
| C46 | `ReqIF.C46_hierarchy` | propext, Quot.sound |
| C46 | `ReqIF.C46_definition` | propext, Quot.sound |
| C46 | `ReqIF.C46_root` | propext |
| C47 | `ReqIF.C47_object_text` | propext |
| C47 | `ReqIF.C47_relation_text` | propext |
| C47 | `ReqIF.C47_specification_text` | propext |
| C47 | `ReqIF.C47_definition_text` | propext |
| C47 | `ReqIF.C47_object` | propext, Classical.choice, Quot.sound |
| C47 | `ReqIF.C47_relation` | propext, Classical.choice, Quot.sound |
| C47 | `ReqIF.C47_specification` | propext, Classical.choice, Quot.sound |
| C47 | `ReqIF.C47_definition` | propext, Classical.choice, Quot.sound |
| C47 | `ReqIF.C47_object_default` | propext, Classical.choice, Quot.sound |
| C47 | `ReqIF.C47_relation_default` | propext, Classical.choice, Quot.sound |
| C47 | `ReqIF.C47_specification_default` | propext, Classical.choice, Quot.sound |
| C47 | `ReqIF.C47_definition_default` | propext, Classical.choice, Quot.sound |
| C48 | `ReqIF.C48_value` | propext, Quot.sound |
| C48 | `ReqIF.C48_step` | propext, Classical.choice, Quot.sound |
| C48 | `ReqIF.C48_stable` | propext, Classical.choice, Quot.sound |
| C48 | `ReqIF.C48_comment` | propext |
| C48 | `ReqIF.C48_attribute` | propext |
| C49 | `ReqIF.C49_document` | propext, Classical.choice, Quot.sound |
| C49 | `ReqIF.C49_tags` | propext, Classical.choice, Quot.sound |
| C49 | `ReqIF.C49_no_namespace` | propext, Classical.choice, Quot.sound |
| C49 | `ReqIF.C49_own_declaration` | propext |
| C49 | `ReqIF.C49_text_becomes_tag` | propext |
| C49 | `ReqIF.C49_attribute` | propext |
| C50 | `ReqIF.C50_document` | propext, Classical.choice, Quot.sound |
| C50 | `ReqIF.C50_once` | propext, Quot.sound |
| C50 | `ReqIF.C50_doubled` | propext, Quot.sound |
| C50 | `ReqIF.C50_grows` | propext, Quot.sound |
| C50 | `ReqIF.C50_passthrough` | propext |
| C50 | `ReqIF.C50_own_declaration` | propext |
| C51 | `ReqIF.C51_document` | propext, Classical.choice, Quot.sound |
| C51 | `ReqIF.C51_document_object` | propext, Classical.choice, Quot.sound |
| C51 | `ReqIF.C51_namespaced` | propext, Quot.sound |
| C51 | `ReqIF.C51_balanced` | propext, Classical.choice, Quot.sound |
| C51 | `ReqIF.C51_plain` | propext, Quot.sound |
| C51 | `ReqIF.C51_plain_balanced` | propext, Classical.choice, Quot.sound |
| C51 | `ReqIF.C51_object` | propext, Classical.choice, Quot.sound |
| C51 | `ReqIF.C51_namespaced_object` | propext |
| C52 | `ReqIF.C52_replaced` | propext, Classical.choice, Quot.sound |
| C53 | `ReqIF.C53_function` | propext, Classical.choice, Quot.sound |
| C53 | `ReqIF.C53_consistent` | propext, Classical.choice, Quot.sound |
| C54 | `ReqIF.C54_collision` | propext, Classical.choice, Quot.sound |
| C54 | `ReqIF.C54_unique` | propext, Classical.choice, Quot.sound |
| C55 | `ReqIF.C55_rest` | propext, Classical.choice, Quot.sound |
| C56 | `ReqIF.C56_heading` | propext, Quot.sound |
| C56 | `ReqIF.C56_accepts` | propext, Quot.sound |
| C56 | `ReqIF.C56_fields` | propext, Quot.sound |
| C57 | `ReqIF.C57_unique_names` | propext, Classical.choice, Quot.sound |
| C57 | `ReqIF.C57_kept` | propext, Quot.sound |
| C58 | `ReqIF.C58_definition_flags` | propext, Quot.sound |
| C58 | `ReqIF.C58_hierarchy_flags` | propext, Quot.sound |
| C58 | `ReqIF.C58_definition_printed` | propext, Classical.choice, Quot.sound |
| C58 | `ReqIF.C58_hierarchy_printed` | propext, Classical.choice, Quot.sound |
| C59 | `ReqIF.C59_passthrough` | propext, Classical.choice, Quot.sound |
| C59 | `ReqIF.C59_passthrough_exit` | propext, Classical.choice, Quot.sound |
| C59 | `ReqIF.C59_anonymize` | propext, Classical.choice, Quot.sound |
| C59 | `ReqIF.C59_anonymize_exit` | propext, Classical.choice, Quot.sound |
| C60 | `ReqIF.C60_document` | propext, Quot.sound |
| C60 | `ReqIF.C60_written` | propext, Quot.sound |
| C60 | `ReqIF.C60_containers` | propext, Quot.sound |
| C60 | `ReqIF.C60_values` | propext |
| C60 | `ReqIF.C60_spec_object` | propext |
| C60 | `ReqIF.C60_specification` | propext |
| C61 | `ReqIF.C61_parses` | propext, Classical.choice, Quot.sound |
| C61 | `ReqIF.C61_dialects` | propext, Classical.choice, Quot.sound |
| C61 | `ReqIF.C61_relation_type` | propext |
| C61 | `ReqIF.C61_specification_type` | propext |
| C61 | `ReqIF.C61_integer_default` | propext |
| C61 | `ReqIF.C61_real_default` | propext |
| C61 | `ReqIF.C61_boolean_default` | propext |
| C61 | `ReqIF.C61_date_default` | propext |
| C61 | `ReqIF.C61_string_default` | propext |
| C61 | `ReqIF.C61_xhtml_default` | propext |
| C61 | `ReqIF.C61_enumeration_default` | propext |
| C61 | `ReqIF.C61_own_namespace` | propext |
| C61 | `ReqIF.C61_enumeration_value` | propext |
| C61 | `ReqIF.C61_relation_real` | propext |
| C61 | `ReqIF.C61_relation_boolean` | propext |
| C61 | `ReqIF.C61_relation_date` | propext |
| C61 | `ReqIF.C61_relation_enumeration` | propext |
| C61 | `ReqIF.C61_prefix` | propext |
| C61 | `ReqIF.C61_comment` | propext |
| C62 | `ReqIF.C62_prints` | propext, Classical.choice, Quot.sound |
| C62 | `ReqIF.C62_lenient` | propext, Classical.choice, Quot.sound |
| C62 | `ReqIF.C62_definition_alternative` | propext |
| C62 | `ReqIF.C62_relation_alternative` | propext |
| C62 | `ReqIF.C62_no_values` | propext |
| C62 | `ReqIF.C62_loses_alternative` | propext |
| C62 | `ReqIF.C62_loses_editable` | propext |
| C62 | `ReqIF.C62_loses_description` | propext |
| C62 | `ReqIF.C62_boolean` | propext |
| C62 | `ReqIF.C62_loses_original` | propext |
| C63 | `ReqIF.Xsd.C63_roundtrip` | propext, Classical.choice, Quot.sound |
| C63 | `ReqIF.Xsd.C63_valid` | propext, Classical.choice, Quot.sound |
| C63 | `ReqIF.Xsd.C63_stable` | propext, Classical.choice, Quot.sound |
| C63 | `ReqIF.Xsd.C63_malformed` | propext |
| C63 | `ReqIF.Xsd.C63_changed` | propext |
| C64 | `ReqIF.C64_page` | propext, Quot.sound |
| C64 | `ReqIF.C64_succeeds` | propext, Quot.sound |
| C64 | `ReqIF.C64_failure` | propext, Quot.sound |
| C64 | `ReqIF.C64_validated` | propext, Classical.choice, Quot.sound |
| C64 | `ReqIF.C64_command` | propext, Classical.choice, Quot.sound |
| C64 | `ReqIF.C64_no_data_types` | propext, Quot.sound |
| C64 | `ReqIF.C64_dangling` | propext, Quot.sound |
| C64 | `ReqIF.C64_injection` | propext, Quot.sound |
| C65 | `ReqIF.C65_report` | propext, Classical.choice, Quot.sound |
| C65 | `ReqIF.C65_not_parsed` | propext, Classical.choice, Quot.sound |
| C65 | `ReqIF.C65_strict` | propext, Classical.choice, Quot.sound |
| C65 | `ReqIF.C65_pi` | propext, Quot.sound |
| C66 | `ReqIF.Xsd.C66_content` | propext, Classical.choice, Quot.sound |
| C66 | `ReqIF.Xsd.C66_passthrough` | propext, Classical.choice, Quot.sound |
| C66 | `ReqIF.Xsd.C66_elements` | propext |
| C66 | `ReqIF.Xsd.C66_values` | propext |
| C66 | `ReqIF.Xsd.C66_attributes` | propext |
| C67 | `ReqIF.Format.C67_content` | propext, Classical.choice, Quot.sound |
| C67 | `ReqIF.Format.C67_stable` | propext, Classical.choice, Quot.sound |
| C67 | `ReqIF.Format.C67_layout` | propext, Classical.choice, Quot.sound |
| C67 | `ReqIF.Format.C67_command` | propext, Classical.choice, Quot.sound |
| C67 | `ReqIF.Format.C67_succeeds` | propext, Classical.choice, Quot.sound |
| C67 | `ReqIF.Format.C67_twice` | propext, Classical.choice, Quot.sound |
| C67 | `ReqIF.Format.C67_adds_space` | propext |
| C67 | `ReqIF.Format.C67_loses_space` | propext |
| C67 | `ReqIF.Format.C67_comment` | propext |
| C67 | `ReqIF.Format.C67_name` | propext |
| C67 | `ReqIF.Format.C67_cdata` | propext |
| C68 | `ReqIF.C68_text` | propext, Quot.sound |
| C68 | `ReqIF.C68_succeeds` | propext, Quot.sound |
| C68 | `ReqIF.C68_roundtrip` | propext, Classical.choice, Quot.sound |
| C68 | `ReqIF.C68_object` | propext |
| C68 | `ReqIF.C68_comment` | propext, Quot.sound |
| C69 | `ReqIF.Cli.C69_files` | propext, Classical.choice, Quot.sound |
| C69 | `ReqIF.Cli.C69_validate` | propext, Classical.choice, Quot.sound |
| C69 | `ReqIF.Cli.C69_version` | propext, Classical.choice, Quot.sound |
| C69 | `ReqIF.Cli.C69_help` | propext, Classical.choice, Quot.sound |
| C69 | `ReqIF.Cli.C69_usage` | propext, Classical.choice, Quot.sound |
| C69 | `ReqIF.Cli.C69_one` | propext, Classical.choice, Quot.sound |
| C69 | `ReqIF.Cli.C69_success` | propext, Classical.choice, Quot.sound |
| C69 | `ReqIF.Cli.C69_failure` | propext, Classical.choice, Quot.sound |
| C69 | `ReqIF.Cli.C69_only` | propext, Classical.choice, Quot.sound |
| C69 | `ReqIF.Cli.C69_validate_exit` | propext, Classical.choice, Quot.sound |
| C69 | `ReqIF.Cli.C69_codes` | propext, Classical.choice, Quot.sound |
| C69 | `ReqIF.Cli.C69_any` | propext, Classical.choice, Quot.sound |
| C70 | `ReqIF.C70_now` | propext, Classical.choice, Quot.sound |
| C70 | `ReqIF.C70_fails` | propext, Classical.choice, Quot.sound |
| C70 | `ReqIF.C70_offset` | none |
| C70 | `ReqIF.C70_seconds` | propext |
| C70 | `ReqIF.C70_unknown` | none |
| C71 | `ReqIF.Xsd.C71_content` | propext, Classical.choice, Quot.sound |
| C71 | `ReqIF.Xsd.C71_passthrough` | propext, Classical.choice, Quot.sound |
| C71 | `ReqIF.Xsd.C71_kept` | propext, Quot.sound |
| C72 | `ReqIF.Xsd.C72_valid` | propext, Classical.choice, Quot.sound |
| C72 | `ReqIF.Xsd.C72_passthrough` | propext, Classical.choice, Quot.sound |
| C72 | `ReqIF.Xsd.C72_kept` | propext, Classical.choice, Quot.sound |
| C72 | `ReqIF.Xsd.C72_losses` | propext, Quot.sound |
| C72 | `ReqIF.Xsd.C72_default` | propext |
| C72 | `ReqIF.Xsd.C72_header` | propext |
| C72 | `ReqIF.Xsd.C72_group` | propext |
| C73 | `ReqIF.C73_text` | propext, Classical.choice, Quot.sound |
| C73 | `ReqIF.C73_file` | propext, Classical.choice, Quot.sound |
| C73 | `ReqIF.C73_output` | propext, Classical.choice, Quot.sound |
| C73 | `ReqIF.C73_output_file` | propext, Classical.choice, Quot.sound |
| C73 | `ReqIF.C73_safe` | propext, Classical.choice, Quot.sound |
| C73 | `ReqIF.C73_malformed` | propext |
| C74 | `ReqIF.Cli.C74_interrupted` | propext, Classical.choice, Quot.sound |
| C74 | `ReqIF.Cli.C74_completed` | propext, Classical.choice, Quot.sound |
| C74 | `ReqIF.Cli.C74_again` | propext, Classical.choice, Quot.sound |
| C74 | `ReqIF.Cli.C74_noticed` | propext, Classical.choice, Quot.sound |
| C74 | `ReqIF.Cli.C74_in_place` | propext, Classical.choice, Quot.sound |
| C75 | `ReqIF.Xsd.C75_entries` | propext, Classical.choice, Quot.sound |
| C75 | `ReqIF.Xsd.C75_integrity` | propext, Classical.choice, Quot.sound |
| C75 | `ReqIF.Xsd.C75_valid` | propext, Classical.choice, Quot.sound |
| C75 | `ReqIF.Xsd.C75_passthrough` | propext, Classical.choice, Quot.sound |
| C75 | `ReqIF.Xsd.C75_editable_lost` | propext |
| C75 | `ReqIF.Xsd.C75_dangling_lost` | propext |
| C76 | `ReqIF.C76_archive` | propext, Classical.choice, Quot.sound |
| C76 | `ReqIF.C76_content` | propext, Classical.choice, Quot.sound |
| C76 | `ReqIF.C76_again` | propext, Classical.choice, Quot.sound |
| C77 | `ReqIF.C77_pieces` | propext, Quot.sound |
| C77 | `ReqIF.C77_local` | propext, Quot.sound |
| C77 | `ReqIF.C77_header` | propext, Quot.sound |
| C77 | `ReqIF.C77_object` | propext, Quot.sound |
| C77 | `ReqIF.C77_string` | propext, Quot.sound |
| C77 | `ReqIF.C77_edit` | propext, Classical.choice, Quot.sound |
| C77 | `ReqIF.C77_lookup` | propext, Classical.choice, Quot.sound |
| C77 | `ReqIF.Xsd.C77_document` | propext, Classical.choice, Quot.sound |
| C77 | `ReqIF.Xsd.C77_set_string` | propext, Classical.choice, Quot.sound |
| C77 | `ReqIF.Xsd.C77_appended` | propext |
| C77 | `ReqIF.C77_hierarchy` | propext |
| C77 | `ReqIF.C77_specification` | propext, Quot.sound |
| C77 | `ReqIF.C77_tree` | propext, Quot.sound |
| C77 | `ReqIF.Xsd.C77_set_tree` | propext, Classical.choice, Quot.sound |
| C78 | `ReqIF.Format.C78_succeeds` | propext |
| C78 | `ReqIF.Format.C78_read` | propext, Classical.choice, Quot.sound |
| C78 | `ReqIF.Format.C78_exact` | propext, Classical.choice, Quot.sound |
| C78 | `ReqIF.Format.C78_tail` | propext, Classical.choice, Quot.sound |
| C78 | `ReqIF.Format.C78_declared` | propext, Classical.choice, Quot.sound |
| C78 | `ReqIF.Format.C78_html` | propext, Classical.choice, Quot.sound |
| C78 | `ReqIF.Format.C78_roundtrip` | propext, Classical.choice, Quot.sound |
| C78 | `ReqIF.Format.C78_words` | propext |
| C78 | `ReqIF.Format.C78_attribute` | propext |
| C78 | `ReqIF.Format.C78_instruction` | propext |
| C79 | `ReqIF.Grammar.C79_tree` | propext, Classical.choice, Quot.sound |
| C79 | `ReqIF.Grammar.C79_unique` | propext, Classical.choice, Quot.sound |
| C79 | `ReqIF.Grammar.C79_refused` | propext, Classical.choice, Quot.sound |
| C79 | `ReqIF.Grammar.C79_same` | propext, Classical.choice, Quot.sound |
| C79 | `ReqIF.Grammar.C79_end_tag` | propext, Classical.choice, Quot.sound |
| C79 | `ReqIF.Grammar.C79_repeated` | propext, Quot.sound |
| C79 | `ReqIF.Grammar.C79_refused_cases` | propext |
| C79 | `ReqIF.Grammar.C79_char` | propext, Classical.choice, Quot.sound |
| C79 | `ReqIF.Grammar.C79_space` | propext, Classical.choice, Quot.sound |
| C79 | `ReqIF.Grammar.C79_nameStart` | propext, Classical.choice, Quot.sound |
| C79 | `ReqIF.Grammar.C79_nameChar` | propext, Classical.choice, Quot.sound |
| C79 | `ReqIF.Grammar.C79_ncname` | propext, Classical.choice, Quot.sound |
| C79 | `ReqIF.Grammar.C79_qname` | propext, Classical.choice, Quot.sound |
| C80 | `ReqIF.Spec.C80_utf8` | propext, Classical.choice, Quot.sound |
| C80 | `ReqIF.Spec.C80_ascii` | propext, Classical.choice, Quot.sound |
| C80 | `ReqIF.Spec.C80_us_ascii` | propext, Classical.choice, Quot.sound |
| C80 | `ReqIF.Spec.C80_latin1` | propext, Classical.choice, Quot.sound |
| C80 | `ReqIF.Spec.C80_garbled` | propext, Classical.choice, Quot.sound |
| C80 | `ReqIF.Spec.C80_file_refused` | propext, Classical.choice, Quot.sound |
| C80 | `ReqIF.Spec.C80_file_latin1` | propext, Classical.choice, Quot.sound |
| C80 | `ReqIF.Spec.C80_altered` | propext, Classical.choice, Quot.sound |
| C80 | `ReqIF.Spec.C80_other` | propext, Classical.choice, Quot.sound |
| C81 | `ReqIF.Debug.C81_any` | propext |
| C81 | `ReqIF.Debug.C81_local` | propext |
| C81 | `ReqIF.Debug.C81_read` | propext, Classical.choice, Quot.sound |
| C81 | `ReqIF.Debug.C81_object` | propext, Classical.choice, Quot.sound |
| C81 | `ReqIF.Debug.C81_quotes` | propext |
| C82 | `ReqIF.Output.C82_text` | propext, Quot.sound |
| C82 | `ReqIF.Output.C82_bundle` | propext, Quot.sound |
| C82 | `ReqIF.Output.C82_failed` | propext, Quot.sound |
| C82 | `ReqIF.Output.C82_created` | propext, Quot.sound |
| C82 | `ReqIF.Output.C82_passthrough` | propext, Classical.choice, Quot.sound |
| C82 | `ReqIF.Output.C82_archive` | propext, Classical.choice, Quot.sound |
| C82 | `ReqIF.Xsd.C82_valid` | propext, Classical.choice, Quot.sound |
| C82 | `ReqIF.Output.C82_reported` | propext, Classical.choice, Quot.sound |
| C82 | `ReqIF.Output.C82_program` | propext, Classical.choice, Quot.sound |
| C82 | `ReqIF.Output.C82_silent` | propext |
| C82 | `ReqIF.Output.C82_reported_too` | propext, Classical.choice, Quot.sound |
| C83 | `ReqIF.C83_number` | propext, Quot.sound |
| C83 | `ReqIF.C83_document` | propext, Quot.sound |
| C83 | `ReqIF.C83_refused` | propext, Quot.sound |
| C83 | `ReqIF.C83_printed` | propext, Classical.choice, Quot.sound |
| C83 | `ReqIF.C83_rewritten` | propext |
| C84 | `ReqIF.Xsd.C84_valid` | propext, Classical.choice, Quot.sound |
| C84 | `ReqIF.Xsd.C84_default` | propext, Classical.choice, Quot.sound |
| C84 | `ReqIF.Xsd.C84_plain_default` | propext, Classical.choice, Quot.sound |
| C85 | `ReqIF.C85_page` | propext, Classical.choice, Quot.sound |
| C85 | `ReqIF.C85_simple` | propext, Classical.choice, Quot.sound |
| C85 | `ReqIF.C85_bundle` | propext, Classical.choice, Quot.sound |
| C85 | `ReqIF.C85_unescaped` | propext, Classical.choice, Quot.sound |
| C86 | `ReqIF.C86_arrangement` | propext, Classical.choice, Quot.sound |
| C86 | `ReqIF.C86_kept` | propext, Classical.choice, Quot.sound |
| C86 | `ReqIF.C86_turned` | propext, Classical.choice, Quot.sound |
| C86 | `ReqIF.C86_enumeration` | propext, Classical.choice, Quot.sound |
| C86 | `ReqIF.C86_enumeration_default` | propext, Classical.choice, Quot.sound |
| C87 | `ReqIF.C87_document` | propext, Classical.choice, Quot.sound |
| C87 | `ReqIF.C87_format` | propext, Classical.choice, Quot.sound |
| C87 | `ReqIF.C87_xhtml` | propext |
| C87 | `ReqIF.C87_reference` | propext |
| C88 | `ReqIF.C88_read` | propext, Classical.choice, Quot.sound |
| C88 | `ReqIF.C88_namespaces` | propext, Quot.sound |
| C88 | `ReqIF.C88_tree` | propext, Quot.sound |
| C88 | `ReqIF.C88_values` | propext, Classical.choice, Quot.sound |
| C88 | `ReqIF.C88_accuracy` | propext |
| C89 | `ReqIF.C89_written` | propext, Classical.choice, Quot.sound |
| C89 | `ReqIF.C89_again` | propext, Classical.choice, Quot.sound |
| C89 | `ReqIF.C89_passes` | propext, Classical.choice, Quot.sound |
| C89 | `ReqIF.C89_by_hand` | propext, Classical.choice, Quot.sound |
| C89 | `ReqIF.C89_object` | propext |
| C89 | `ReqIF.C89_relation` | propext |
| C89 | `ReqIF.C89_default` | propext |
| C89 | `ReqIF.C89_empty_root` | propext |
| C90 | `ReqIF.Cli.C90_passthrough` | propext, Classical.choice, Quot.sound |
| C90 | `ReqIF.Cli.C90_archive` | propext, Classical.choice, Quot.sound |
| C90 | `ReqIF.Cli.C90_anonymize` | propext, Classical.choice, Quot.sound |
| C90 | `ReqIF.Cli.C90_dump` | propext, Classical.choice, Quot.sound |
| C90 | `ReqIF.Cli.C90_format` | propext, Classical.choice, Quot.sound |
| C90 | `ReqIF.Cli.C90_validate` | propext, Classical.choice, Quot.sound |
| C90 | `ReqIF.Cli.C90_empty_comment` | propext, Classical.choice, Quot.sound |
| C90 | `ReqIF.Cli.C90_value_comment` | propext, Classical.choice, Quot.sound |
| C91 | `ReqIF.Cli.C91_others` | propext, Classical.choice, Quot.sound |
| C91 | `ReqIF.Cli.C91_result` | propext, Classical.choice, Quot.sound |
| C91 | `ReqIF.Cli.C91_ends` | propext, Classical.choice, Quot.sound |
| C91 | `ReqIF.Cli.C91_meanwhile` | propext, Classical.choice, Quot.sound |
| C91 | `ReqIF.Cli.C91_order` | propext, Classical.choice, Quot.sound |
| C91 | `ReqIF.Cli.C91_torn` | propext, Classical.choice, Quot.sound |
| C91 | `ReqIF.Cli.C91_same_output` | propext, Classical.choice, Quot.sound |
| C92 | `ReqIF.C92_document` | propext, Classical.choice, Quot.sound |
| C92 | `ReqIF.C92_layout` | propext, Classical.choice, Quot.sound |
| C92 | `ReqIF.C92_xhtml` | propext |
| C92 | `ReqIF.C92_root` | propext |
| C93 | `ReqIF.C93_prefixes` | propext, Quot.sound |
| C93 | `ReqIF.C93_same_root` | propext, Quot.sound |
| C93 | `ReqIF.C93_refused` | propext |
| C93 | `ReqIF.C93_malformed` | propext |
| C94 | `ReqIF.C94_references` | propext, Classical.choice, Quot.sound |
| C94 | `ReqIF.C94_valid` | propext, Classical.choice, Quot.sound |
| C94 | `ReqIF.C94_read` | propext, Classical.choice, Quot.sound |
| C94 | `ReqIF.C94_contents` | propext, Classical.choice, Quot.sound |
| C94 | `ReqIF.C94_refused` | propext, Classical.choice, Quot.sound |
| C95 | `ReqIF.C95_page` | propext, Quot.sound |
| C95 | `ReqIF.C95_issues` | propext, Classical.choice, Quot.sound |
| C95 | `ReqIF.C95_layout` | propext, Classical.choice, Quot.sound |
| C95 | `ReqIF.C95_prefixes` | propext, Quot.sound |
| C95 | `ReqIF.C95_format` | propext, Classical.choice, Quot.sound |
| C95 | `ReqIF.C95_passthrough` | propext, Classical.choice, Quot.sound |
| C95 | `ReqIF.Cli.C95_commands` | propext, Classical.choice, Quot.sound |
| C95 | `ReqIF.C95_changed` | propext, Quot.sound |
| C96 | `ReqIF.C96_read` | propext, Classical.choice, Quot.sound |
| C96 | `ReqIF.C96_both` | propext, Classical.choice, Quot.sound |
| C96 | `ReqIF.C96_clear` | propext |
| C97 | `ReqIF.C97_same` | propext, Classical.choice, Quot.sound |
| C97 | `ReqIF.C97_not_unique` | propext, Classical.choice, Quot.sound |
| C98 | `ReqIF.C98_passthrough` | propext, Classical.choice, Quot.sound |
| C98 | `ReqIF.C98_too_deep` | propext, Classical.choice, Quot.sound |
| C98 | `ReqIF.C98_accepted` | propext, Classical.choice, Quot.sound |
| C98 | `ReqIF.C98_exact` | propext, Classical.choice, Quot.sound |
| C98 | `ReqIF.C98_opposite` | propext, Classical.choice, Quot.sound |
| C98 | `ReqIF.C98_stack` | propext, Quot.sound |
| C98 | `ReqIF.C98_stack_exact` | propext, Quot.sound |
| C99 | `ReqIF.C99_bound` | propext, Classical.choice, Quot.sound |
| C99 | `ReqIF.C99_cubic` | propext, Classical.choice, Quot.sound |
| C99 | `ReqIF.C99_quadratic` | propext, Classical.choice, Quot.sound |
| C100 | `ReqIF.Build.C100_tree` | propext, Classical.choice, Quot.sound |
| C100 | `ReqIF.Build.C100_acyclic` | propext, Classical.choice, Quot.sound |
| C100 | `ReqIF.Build.C100_printed` | propext, Classical.choice, Quot.sound |
| C100 | `ReqIF.Build.C100_walk` | propext, Classical.choice, Quot.sound |
| C100 | `ReqIF.Build.C100_add` | propext, Classical.choice, Quot.sound |
| C100 | `ReqIF.Build.C100_refused` | propext, Classical.choice, Quot.sound |
| C100 | `ReqIF.Build.C100_frame` | propext, Classical.choice, Quot.sound |
| C100 | `ReqIF.Build.C100_built` | propext, Classical.choice, Quot.sound |
| C100 | `ReqIF.Build.C100_parsed` | propext, Classical.choice, Quot.sound |
| C100 | `ReqIF.Build.C100_mark` | propext, Classical.choice, Quot.sound |
| C100 | `ReqIF.Build.C100_cycle` | propext, Quot.sound |
| C100 | `ReqIF.Build.C100_list` | propext |
| C101 | `ReqIF.C101_document` | propext, Classical.choice, Quot.sound |
| C101 | `ReqIF.C101_layout` | propext, Classical.choice, Quot.sound |
| C101 | `ReqIF.C101_shown` | propext, Classical.choice, Quot.sound |
| C101 | `ReqIF.C101_read` | propext |
| C101 | `ReqIF.C101_written` | propext |
| C101 | `ReqIF.C101_hierarchy` | propext |
| C102 | `ReqIF.Build.C102_changed` | propext, Classical.choice, Quot.sound |
| C102 | `ReqIF.Build.C102_ends` | propext, Classical.choice, Quot.sound |
| C102 | `ReqIF.Build.C102_idle` | propext, Quot.sound |
| C102 | `ReqIF.Build.C102_late` | propext |
| C103 | `ReqIF.Cells.C103_lists` | propext, Classical.choice, Quot.sound |
| C103 | `ReqIF.Cells.C103_set` | propext, Classical.choice, Quot.sound |
| C103 | `ReqIF.Cells.C103_written` | propext, Classical.choice, Quot.sound |
| C103 | `ReqIF.Cells.C103_parsed` | propext, Classical.choice, Quot.sound |
| C103 | `ReqIF.Cells.C103_appended` | propext |
| C103 | `ReqIF.Cells.C103_twins` | propext |
| C104 | `ReqIF.Rename.C104_document` | propext, Quot.sound |
| C104 | `ReqIF.Rename.C104_lookup` | propext, Quot.sound |
| C104 | `ReqIF.Rename.C104_iterate` | propext, Quot.sound |
| C104 | `ReqIF.Rename.C104_validate` | propext, Quot.sound |
| C104 | `ReqIF.Rename.C104_valid` | propext, Quot.sound |
| C104 | `ReqIF.Rename.C104_injective` | propext |
| C105 | `ReqIF.Items.C105_together` | propext, Quot.sound |
| C105 | `ReqIF.Items.C105_objects` | propext |
| C105 | `ReqIF.Items.C105_validated` | propext, Quot.sound |
| C105 | `ReqIF.Items.C105_neighbour` | propext |
| C106 | `ReqIF.C106_conversion` | propext, Quot.sound |
| C106 | `ReqIF.C106_exactly` | propext, Classical.choice, Quot.sound |
| C106 | `ReqIF.C106_gap` | propext, Classical.choice, Quot.sound |
| C106 | `ReqIF.C106_parsed` | propext, Quot.sound |
| C106 | `ReqIF.C106_on_top` | propext, Quot.sound |
| C106 | `ReqIF.C106_silently` | propext, Quot.sound |
| C107 | `ReqIF.C107_document` | propext, Classical.choice, Quot.sound |
| C107 | `ReqIF.C107_layout` | propext, Classical.choice, Quot.sound |
| C107 | `ReqIF.C107_shown` | propext, Classical.choice, Quot.sound |
| C107 | `ReqIF.C107_dropped` | propext, Classical.choice, Quot.sound |
| C107 | `ReqIF.C107_read` | propext |
| C107 | `ReqIF.C107_case` | propext |
| C108 | `ReqIF.C108_read` | propext, Quot.sound |
| C108 | `ReqIF.C108_part` | propext, Quot.sound |
| C108 | `ReqIF.C108_again` | propext, Quot.sound |
| C108 | `ReqIF.C108_written` | propext, Quot.sound |
| C108 | `ReqIF.C108_break` | none |
| C109 | `ReqIF.C109_lists` | propext, Quot.sound |
| C109 | `ReqIF.C109_groups` | propext, Quot.sound |
| C109 | `ReqIF.C109_lookups` | propext, Classical.choice, Quot.sound |
| C109 | `ReqIF.C109_parents` | propext, Classical.choice, Quot.sound |
| C109 | `ReqIF.C109_validated` | propext, Classical.choice, Quot.sound |
| C109 | `ReqIF.C109_accepted` | propext, Classical.choice, Quot.sound |
| C109 | `ReqIF.C109_documents` | propext, Quot.sound |
| C109 | `ReqIF.C109_written` | propext, Quot.sound |
| C109 | `ReqIF.C109_repeated` | propext |
