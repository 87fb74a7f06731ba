# Axioms of the claimed theorems

Output of `#print axioms`, collected by `tools/axioms.py`.

| Property | Theorem | Axioms |
|---|---|---|
| C01 | C01_rule_deny_overrides | propext, Classical.choice, Quot.sound |
| C01 | C01_C02_unset_effect | propext, Classical.choice, Quot.sound |
| C01 | rules_run | propext, Classical.choice, Quot.sound |
| C02 | C02_rule_permit_overrides | propext, Classical.choice, Quot.sound |
| C02 | C01_C02_unset_effect | propext, Classical.choice, Quot.sound |
| C02 | rules_run | propext, Classical.choice, Quot.sound |
| C03 | C03_rule_first_applicable | propext, Classical.choice, Quot.sound |
| C03 | C03_policy_first_applicable | propext, Classical.choice, Quot.sound |
| C03 | children_run | propext, Classical.choice, Quot.sound |
| C04 | C04_policy_deny_overrides | propext, Classical.choice, Quot.sound |
| C05 | C05_policy_permit_overrides | propext, Classical.choice, Quot.sound |
| C06 | C06_total | propext, Classical.choice, Quot.sound |
| C06 | C06_no_policy | propext, Classical.choice, Quot.sound |
| C06 | C06_rule_total | propext, Classical.choice, Quot.sound |
| C07 | C07_not_matched | propext, Classical.choice, Quot.sound |
| C07 | C07_target_fails | propext, Classical.choice, Quot.sound |
| C07 | C07_matched | propext, Classical.choice, Quot.sound |
| C07 | C07_no_target | propext, Classical.choice, Quot.sound |
| C08 | C08_target_and_or_and | propext, Classical.choice, Quot.sound |
| C08 | C08_target_fails_iff | propext, Classical.choice, Quot.sound |
| C09 | C09_partial | propext, Classical.choice, Quot.sound |
| C09 | C09_error_partial | propext, Classical.choice, Quot.sound |
| C09 | C09_entry_violated | propext, Classical.choice, Quot.sound |
| C09 | C09_section_violated | propext, Classical.choice, Quot.sound |
| C10 | C10_match_exists | propext, Classical.choice, Quot.sound |
| C10 | C10_match_error | propext, Classical.choice, Quot.sound |
| C10 | C10_no_bag | propext, Classical.choice, Quot.sound |
| C10 | C10_boolean_functions | propext, Classical.choice, Quot.sound |
| C100 | C100_registering | propext, Classical.choice, Quot.sound |
| C100 | C100_unrelated | propext, Classical.choice, Quot.sound |
| C100 | C100_last | propext, Classical.choice, Quot.sound |
| C100 | C100_afterwards | propext, Classical.choice, Quot.sound |
| C100 | C100_violated_mixed | propext, Classical.choice, Quot.sound |
| C100 | C100_violated_permit | propext, Classical.choice, Quot.sound |
| C101 | C101_rules | propext, Classical.choice, Quot.sound |
| C101 | C101_rules_never_grants | propext, Classical.choice, Quot.sound |
| C101 | C101_policies | propext, Classical.choice, Quot.sound |
| C101 | C101_policies_never_grants | propext, Classical.choice, Quot.sound |
| C101 | C101_separate_needed | propext, Classical.choice, Quot.sound |
| C101 | C101_success_needed | propext, Classical.choice, Quot.sound |
| C102 | C102_rules | propext, Classical.choice, Quot.sound |
| C102 | C102_rules_never_grants | propext, Classical.choice, Quot.sound |
| C102 | C102_policies | propext, Classical.choice, Quot.sound |
| C102 | C102_policies_never_grants | propext, Classical.choice, Quot.sound |
| C102 | C102_success_needed | propext, Classical.choice, Quot.sound |
| C103 | C103_exceptions | propext, Classical.choice, Quot.sound |
| C103 | C103_context_partial | propext, Classical.choice, Quot.sound |
| C103 | C103_count | propext, Classical.choice, Quot.sound |
| C103 | C103_violated | propext, Classical.choice, Quot.sound |
| C104 | C104_sees_more | propext, Classical.choice, Quot.sound |
| C104 | C104_more_attributes | propext, Classical.choice, Quot.sound |
| C104 | C104_equality | propext, Classical.choice, Quot.sound |
| C104 | C104_pattern | propext, Classical.choice, Quot.sound |
| C104 | C104_searching_needed | propext, Classical.choice, Quot.sound |
| C104 | C104_deny_set_needed | propext, Classical.choice, Quot.sound |
| C104 | C104_present_needed | propext, Classical.choice, Quot.sound |
| C105 | C105_values | propext, Classical.choice, Quot.sound |
| C105 | C105_unmentioned | propext, Classical.choice, Quot.sound |
| C105 | C105_alike | propext, Classical.choice, Quot.sound |
| C105 | C105_must_differ | propext, Classical.choice, Quot.sound |
| C105 | C105_must_compare | propext, Classical.choice, Quot.sound |
| C106 | C106_violated | propext, Classical.choice, Quot.sound |
| C106 | C106_algorithm | propext, Classical.choice, Quot.sound |
| C106 | C106_policy_partial | propext, Classical.choice, Quot.sound |
| C106 | C106_local_partial | propext, Classical.choice, Quot.sound |
| C106 | C106_loading_partial | propext, Classical.choice, Quot.sound |
| C106 | C106_flawless_partial | propext, Classical.choice, Quot.sound |
| C106 | C106_standard_partial | propext, Classical.choice, Quot.sound |
| C107 | C107_violated | propext, Classical.choice, Quot.sound |
| C107 | C107_violated_decision | propext, Classical.choice, Quot.sound |
| C107 | C107_request_partial | propext, Classical.choice, Quot.sound |
| C107 | C107_response_partial | propext, Classical.choice, Quot.sound |
| C107 | C107_kinds_partial | propext, Classical.choice, Quot.sound |
| C108 | C108_rule | propext, Classical.choice, Quot.sound |
| C108 | C108_policy | propext, Classical.choice, Quot.sound |
| C108 | C108_partial | propext, Classical.choice, Quot.sound |
| C108 | C108_twice | propext |
| C108 | C108_violated | propext, Classical.choice, Quot.sound |
| C109 | C109_repeating | propext, Classical.choice, Quot.sound |
| C11 | C11_partial | propext, Classical.choice, Quot.sound |
| C11 | C11_effect_iff_truthy | propext, Classical.choice, Quot.sound |
| C11 | C11_violated | propext, Classical.choice, Quot.sound |
| C110 | C110_partial | propext, Classical.choice, Quot.sound |
| C110 | C110_never_grants | propext, Classical.choice, Quot.sound |
| C110 | C110_violated | propext, Classical.choice, Quot.sound |
| C111 | C111_partial | propext, Classical.choice, Quot.sound |
| C111 | C111_never_grants | propext, Classical.choice, Quot.sound |
| C111 | C111_violated | propext, Classical.choice, Quot.sound |
| C112 | C112_boolean_algebra | propext, Classical.choice, Quot.sound |
| C112 | C112_expression | propext, Classical.choice, Quot.sound |
| C113 | C113_target_as_condition | propext, Classical.choice, Quot.sound |
| C114 | C114_target | propext, Classical.choice, Quot.sound |
| C114 | C114_policy | propext, Classical.choice, Quot.sound |
| C114 | C114_elements_matter | propext, Classical.choice, Quot.sound |
| C115 | C115_default | propext, Classical.choice, Quot.sound |
| C115 | C115_decides | propext, Classical.choice, Quot.sound |
| C116 | C116_facts | propext, Classical.choice, Quot.sound |
| C116 | C116_handler | propext, Classical.choice, Quot.sound |
| C116 | C116_repetition_matters | propext, Classical.choice, Quot.sound |
| C117 | C117_dead | propext, Classical.choice, Quot.sound |
| C117 | C117_always | propext, Classical.choice, Quot.sound |
| C118 | C118_excerpt | propext, Classical.choice, Quot.sound |
| C118 | C118_select | propext, Classical.choice, Quot.sound |
| C118 | C118_failing_counts | propext, Classical.choice, Quot.sound |
| C12 | C12_permit_has_witness | propext, Classical.choice, Quot.sound |
| C12 | C12_no_permit_rule | propext, Classical.choice, Quot.sound |
| C13 | C13_designator_exact | propext, Quot.sound |
| C13 | C13_designated_iff | propext, Quot.sound |
| C13 | C13_otherwise | propext, Quot.sound |
| C14 | C14_present | propext, Quot.sound |
| C14 | C14_missing_iff | propext, Classical.choice, Quot.sound |
| C14 | C14_not_required | propext, Classical.choice, Quot.sound |
| C14 | C14_selector | propext, Classical.choice, Quot.sound |
| C15 | C15_designator | propext, Classical.choice, Quot.sound |
| C15 | C15_selector | propext, Classical.choice, Quot.sound |
| C15 | C15_bag_function | propext, Classical.choice, Quot.sound |
| C16 | C16_one_query_per_subject | propext, Classical.choice, Quot.sound |
| C16 | C16_no_query | propext, Classical.choice, Quot.sound |
| C16 | C16_own_attributes_first | propext, Quot.sound |
| C16 | C17_subject_values | propext, Quot.sound |
| C17 | C17_violated | propext, Quot.sound |
| C17 | C17_partial | propext, Quot.sound |
| C17 | C17_added_iff | propext, Quot.sound |
| C17 | C17_subject_values | propext, Quot.sound |
| C18 | C18_apply | propext, Classical.choice, Quot.sound |
| C18 | C18_apply_argument_fails | propext, Classical.choice, Quot.sound |
| C19 | C19_and | propext, Classical.choice, Quot.sound |
| C19 | C19_and_rejects | propext, Classical.choice, Quot.sound |
| C19 | C19_not | propext, Classical.choice, Quot.sound |
| C20 | C20_equal | propext, Classical.choice, Quot.sound |
| C20 | C20_equal_rejects | propext, Classical.choice, Quot.sound |
| C20 | C20_equal_symm | propext, Classical.choice, Quot.sound |
| C20 | C20_equal_refl | propext, Classical.choice, Quot.sound |
| C20 | C20_match_agrees | propext, Classical.choice, Quot.sound |
| C21 | C21_one_and_only | propext, Classical.choice, Quot.sound |
| C21 | C21_one_and_only_rejects | propext, Classical.choice, Quot.sound |
| C21 | C21_bag_then_one_and_only | propext, Classical.choice, Quot.sound |
| C22 | C22_member | propext, Classical.choice, Quot.sound |
| C22 | C22_rejects | propext, Classical.choice, Quot.sound |
| C22 | C22_set_like | propext, Classical.choice, Quot.sound |
| C23 | C23_concatenate | propext, Classical.choice, Quot.sound |
| C23 | C23_rejects | propext, Classical.choice, Quot.sound |
| C24 | C24_regexp_match | propext, Classical.choice, Quot.sound |
| C24 | C24_cache_transparent | propext, Classical.choice, Quot.sound |
| C25 | C25_history_independent | propext, Classical.choice, Quot.sound |
| C26 | C26_rules | propext, Classical.choice, Quot.sound |
| C26 | C26_policies | propext, Classical.choice, Quot.sound |
| C27 | C27_rules | propext, Classical.choice, Quot.sound |
| C27 | C27_policies | propext, Classical.choice, Quot.sound |
| C28 | C28_violated | propext, Classical.choice, Quot.sound |
| C28 | C28_violated_permit | propext, Classical.choice, Quot.sound |
| C28 | C28_partial | propext, Classical.choice, Quot.sound |
| C28 | C28_assign | propext, Quot.sound |
| C28 | C28_responses_share_constants | propext, Classical.choice, Quot.sound |
| C29 | C29_violated | propext, Classical.choice, Quot.sound |
| C29 | C29_partial | propext, Classical.choice, Quot.sound |
| C30 | C30_violated | propext, Classical.choice, Quot.sound |
| C30 | C30_partial | propext, Classical.choice, Quot.sound |
| C31 | C31_violated | propext, Classical.choice, Quot.sound |
| C31 | C31_step_partial | propext, Classical.choice, Quot.sound |
| C31 | C31_history_partial | propext, Classical.choice, Quot.sound |
| C32 | C32_rules | propext, Classical.choice, Quot.sound |
| C32 | C32_policies | propext, Classical.choice, Quot.sound |
| C33 | C33_exclusive | propext, Classical.choice, Quot.sound |
| C33 | C33_failed | propext, Classical.choice, Quot.sound |
| C33 | C33_types | propext, Classical.choice, Quot.sound |
| C33 | C33_value | propext, Classical.choice, Quot.sound |
| C34 | C34_stable | propext, Classical.choice, Quot.sound |
| C35 | C35_standard | propext, Classical.choice, Quot.sound |
| C35 | C35_implemented | propext, Quot.sound |
| C35 | C35_loadAllCore | propext, Classical.choice, Quot.sound |
| C35 | C35_uri_string_concatenate | propext, Classical.choice, Quot.sound |
| C36 | C36_lookup | propext, Classical.choice, Quot.sound |
| C36 | C36_registered_exists | propext, Classical.choice, Quot.sound |
| C36 | C36_standard_protected | propext, Classical.choice, Quot.sound |
| C36 | C36_atomic | propext, Classical.choice, Quot.sound |
| C37 | C37_lookup | propext, Quot.sound |
| C37 | C37_conservative | propext, Quot.sound |
| C37 | C37_rejects | propext |
| C37 | C37_distinct | propext |
| C38 | C38_native | propext, Quot.sound |
| C38 | C38_assign | propext |
| C38 | C38_base64_unsettable | propext |
| C38 | C38_types | propext |
| C39 | C39_same_class | propext, Classical.choice, Quot.sound |
| C39 | C39_other_class | propext, Quot.sound |
| C39 | C39_equivalence | propext, Classical.choice, Quot.sound |
| C40 | C40_homogeneous | propext, Quot.sound |
| C40 | C40_atomic | propext |
| C40 | C40_rejects | propext, Classical.choice, Quot.sound |
| C40 | C40_adds_partial | propext, Quot.sound |
| C40 | C40_violated | propext, Quot.sound |
| C40 | C40_unchecked_calls | propext |
| C40 | bag_extend_typedList | propext, Classical.choice, Quot.sound |
| C41 | C41_violated | none |
| C41 | C41_contains | propext, Quot.sound |
| C41 | C41_partial | propext, Classical.choice, Quot.sound |
| C42 | C42_lookup | propext, Classical.choice, Quot.sound |
| C42 | C42_vetted | propext, Classical.choice, Quot.sound |
| C42 | C42_violated | propext |
| C42 | C42_get_partial | propext |
| C43 | C43_violated | propext, Classical.choice, Quot.sound |
| C43 | C43_update_error_violated | propext, Classical.choice, Quot.sound |
| C43 | C43_keys_partial | propext, Quot.sound |
| C43 | C43_set | propext, Quot.sound |
| C44 | C44_policy | propext, Classical.choice, Quot.sound |
| C44 | C44_rules | propext, Classical.choice, Quot.sound |
| C44 | C44_rejects | propext, Classical.choice, Quot.sound |
| C44 | C44_description | propext, Classical.choice, Quot.sound |
| C45 | C45_standard_library | propext, Classical.choice, Quot.sound |
| C45 | C45_lxml_partial | propext, Classical.choice, Quot.sound |
| C45 | C45_violated | propext, Classical.choice, Quot.sound |
| C45 | C45_violated_defaults | propext, Classical.choice, Quot.sound |
| C46 | C46_read | propext, Classical.choice, Quot.sound |
| C46 | C46_load | propext, Classical.choice, Quot.sound |
| C46 | C46_standard_readers | propext, Classical.choice, Quot.sound |
| C46 | C46_local | propext, Classical.choice, Quot.sound |
| C47 | C47_partial | propext, Classical.choice, Quot.sound |
| C47 | C47_exact | propext, Classical.choice, Quot.sound |
| C47 | C47_violated | propext, Classical.choice, Quot.sound |
| C48 | C48_local | propext, Classical.choice, Quot.sound |
| C48 | C48_url | propext, Classical.choice, Quot.sound |
| C48 | C48_unresolved | propext, Classical.choice, Quot.sound |
| C48 | C48_complete | propext, Classical.choice, Quot.sound |
| C48 | C48_new_finder | none |
| C49 | C49_first_wins | propext, Quot.sound |
| C49 | C49_atomic | propext |
| C49 | C49_reading | propext, Classical.choice, Quot.sound |
| C49 | C49_load_once | propext, Classical.choice, Quot.sound |
| C50 | C50_cycle | propext, Classical.choice, Quot.sound |
| C51 | C51_back | propext, Classical.choice, Quot.sound |
| C51 | C51_partial | propext, Classical.choice, Quot.sound |
| C51 | C51_violated_category | propext, Classical.choice, Quot.sound |
| C51 | C51_violated_values | propext, Classical.choice, Quot.sound |
| C51 | C51_violated_getchildren | propext, Classical.choice, Quot.sound |
| C52 | C52_back | propext, Classical.choice, Quot.sound |
| C52 | C52_partial | propext, Classical.choice, Quot.sound |
| C52 | C52_violated | propext, Quot.sound |
| C53 | C53_partial | propext, Classical.choice, Quot.sound |
| C53 | C53_no_base | propext, Classical.choice, Quot.sound |
| C53 | C53_empty | propext, Classical.choice, Quot.sound |
| C53 | C53_violated | propext, Classical.choice, Quot.sound |
| C54 | C54_violated | propext, Classical.choice, Quot.sound |
| C54 | C54_partial | propext, Classical.choice, Quot.sound |
| C54 | C54_quiet_functions | propext, Classical.choice, Quot.sound |
| C55 | C55_selector_values | propext, Classical.choice, Quot.sound |
| C55 | C55_selector_fails | propext |
| C56 | C56_step | propext, Classical.choice, Quot.sound |
| C56 | C56_history | propext, Classical.choice, Quot.sound |
| C57 | C57_violated | propext, Quot.sound |
| C57 | C57_partial | propext, Quot.sound |
| C58 | C58_violated | propext, Classical.choice, Quot.sound |
| C58 | C58_round_partial | propext, Classical.choice, Quot.sound |
| C59 | C59_compositional | propext, Classical.choice, Quot.sound |
| C60 | C60_violated | propext, Classical.choice, Quot.sound |
| C60 | C60_exceptions | propext, Classical.choice, Quot.sound |
| C60 | C60_step_partial | propext, Classical.choice, Quot.sound |
| C60 | C60_standard | propext, Classical.choice, Quot.sound |
| C60 | C60_history_partial | propext, Classical.choice, Quot.sound |
| C61 | C61_request | propext, Classical.choice, Quot.sound |
| C62 | C62_response | propext, Classical.choice, Quot.sound |
| C62 | C62_status | propext, Classical.choice, Quot.sound |
| C63 | C63_namespaces | propext, Classical.choice, Quot.sound |
| C63 | C63_standard_library | propext, Classical.choice, Quot.sound |
| C63 | C63_lxml_partial | propext, Classical.choice, Quot.sound |
| C63 | C63_violated_value | propext, Classical.choice, Quot.sound |
| C63 | C63_violated_empty | propext, Classical.choice, Quot.sound |
| C64 | C64_function | propext, Classical.choice, Quot.sound |
| C64 | C64_expression | propext, Classical.choice, Quot.sound |
| C64 | C64_target | propext, Classical.choice, Quot.sound |
| C64 | C64_rule | propext, Classical.choice, Quot.sound |
| C64 | C64_pdp | propext, Classical.choice, Quot.sound |
| C65 | C65_bad_finder | propext, Classical.choice, Quot.sound |
| C65 | C65_unparsable | propext, Classical.choice, Quot.sound |
| C65 | C65_root | propext, Classical.choice, Quot.sound |
| C65 | C65_agree | propext, Classical.choice, Quot.sound |
| C65 | C65_kind | propext, Classical.choice, Quot.sound |
| C65 | C65_default_finder | propext, Classical.choice, Quot.sound |
| C65 | C65_violated_object | propext, Classical.choice, Quot.sound |
| C65 | C65_violated_policyset | none |
| C66 | C66_end_to_end | propext, Classical.choice, Quot.sound |
| C66 | loaded_complete | propext, Classical.choice, Quot.sound |
| C67 | C67_namespaces | propext, Classical.choice, Quot.sound |
| C67 | C67_comments | propext, Classical.choice, Quot.sound |
| C67 | C67_lxml_partial | propext, Classical.choice, Quot.sound |
| C68 | C68_relevant | propext, Classical.choice, Quot.sound |
| C68 | C68_unnamed | propext, Classical.choice, Quot.sound |
| C68 | C68_grouping | propext, Classical.choice, Quot.sound |
| C69 | C69_labels | propext, Classical.choice, Quot.sound |
| C70 | C70_deny_rules | propext, Classical.choice, Quot.sound |
| C70 | C70_permit_rules | propext, Classical.choice, Quot.sound |
| C70 | C70_violated_permit_set | propext, Classical.choice, Quot.sound |
| C71 | C71_select | propext, Classical.choice, Quot.sound |
| C71 | C71_evaluate | propext, Classical.choice, Quot.sound |
| C71 | C71_match | propext, Classical.choice, Quot.sound |
| C71 | C71_relative | propext, Classical.choice, Quot.sound |
| C71 | C71_lxml | propext, Classical.choice, Quot.sound |
| C71 | C71_violated_root | propext, Classical.choice, Quot.sound |
| C71 | C71_violated_duplicates | propext, Classical.choice, Quot.sound |
| C71 | C71_violated_prefix | propext, Classical.choice, Quot.sound |
| C71 | C71_violated_text | propext, Classical.choice, Quot.sound |
| C71 | C71_violated_blank | propext, Classical.choice, Quot.sound |
| C71 | C71_violated_position | propext, Classical.choice, Quot.sound |
| C71 | C71_violated_lxml_value | propext, Classical.choice, Quot.sound |
| C72 | C72_named_partial | propext, Classical.choice, Quot.sound |
| C72 | C72_resolves | propext, Classical.choice, Quot.sound |
| C72 | C72_unsupported | propext, Classical.choice, Quot.sound |
| C72 | C72_violated | propext, Classical.choice, Quot.sound |
| C72 | C72_violated_letters | propext, Classical.choice, Quot.sound |
| C73 | C73_interleaved | propext, Classical.choice, Quot.sound |
| C73 | C73_schedule_independent | propext, Classical.choice, Quot.sound |
| C73 | C73_finishes | propext, Classical.choice, Quot.sound |
| C73 | C73_afterwards | propext, Classical.choice, Quot.sound |
| C73 | C73_uninterrupted | propext, Classical.choice, Quot.sound |
| C74 | C74_lookups | propext, Classical.choice, Quot.sound |
| C74 | C74_standard | propext, Classical.choice, Quot.sound |
| C74 | C74_registered_partial | propext, Classical.choice, Quot.sound |
| C74 | C74_agree_partial | propext, Classical.choice, Quot.sound |
| C74 | C74_finishes | propext, Classical.choice, Quot.sound |
| C74 | C74_uninterrupted | propext, Classical.choice, Quot.sound |
| C74 | C74_violated | propext, Classical.choice, Quot.sound |
| C75 | C75_names_differ | none |
| C75 | C75_copy | propext, Classical.choice, Quot.sound |
| C75 | C75_deepcopy_response_partial | propext, Classical.choice, Quot.sound |
| C75 | C75_deepcopy_response_reads | propext, Classical.choice, Quot.sound |
| C75 | C75_deepcopy_request | propext, Classical.choice, Quot.sound |
| C75 | C75_pickle_request | propext, Classical.choice, Quot.sound |
| C75 | C75_pickle_response | propext, Classical.choice, Quot.sound |
| C75 | C75_policy_violated | propext |
| C75 | C75_attribute_violated | propext, Classical.choice, Quot.sound |
| C75 | C75_silent_violated | propext |
| C76 | C76_reads_partial | propext, Classical.choice, Quot.sound |
| C76 | C76_strip | propext, Classical.choice, Quot.sound |
| C76 | C76_unambiguous | propext, Classical.choice, Quot.sound |
| C76 | C76_succeeds | propext, Classical.choice, Quot.sound |
| C76 | C76_depends | propext, Classical.choice, Quot.sound |
| C76 | C76_violated_registry | propext, Classical.choice, Quot.sound |
| C76 | C76_violated_text | propext, Classical.choice, Quot.sound |
| C76 | C76_violated_attribute | propext, Classical.choice, Quot.sound |
| C76 | C76_violated_tail | propext, Classical.choice, Quot.sound |
| C76 | C76_violated_no_namespace | propext, Classical.choice, Quot.sound |
| C76 | C76_violated_prefixes | propext, Classical.choice, Quot.sound |
| C76 | C76_lxml_succeeds | propext, Classical.choice, Quot.sound |
| C76 | C76_lxml_partial | propext, Classical.choice, Quot.sound |
| C76 | C76_lxml_violated_fails | propext, Classical.choice, Quot.sound |
| C76 | C76_lxml_violated_prefix | propext, Classical.choice, Quot.sound |
| C76 | C76_lxml_violated_namespace | propext, Classical.choice, Quot.sound |
| C77 | C77_rewind | propext, Classical.choice, Quot.sound |
| C77 | C77_nested_partial | propext, Classical.choice, Quot.sound |
| C77 | C77_print | propext, Classical.choice, Quot.sound |
| C77 | C77_violated_lost | propext, Classical.choice, Quot.sound |
| C77 | C77_violated_overlap | propext, Classical.choice, Quot.sound |
| C78 | C78_spellings | propext, Quot.sound |
| C78 | C78_nested | propext, Quot.sound |
| C78 | C78_errors | propext, Quot.sound |
| C78 | C78_type | propext |
| C78 | C78_bare | propext |
| C79 | C79_violated | propext |
| C79 | C79_partial | propext |
| C79 | C79_history | propext |
| C79 | C79_result | propext |
| C80 | C80_registered | propext, Classical.choice, Quot.sound |
| C80 | C80_inferred | propext, Classical.choice, Quot.sound |
| C80 | C80_package | propext, Classical.choice, Quot.sound |
| C80 | C80_violated | propext, Classical.choice, Quot.sound |
| C80 | C80_violated_missing | propext, Classical.choice, Quot.sound |
| C81 | C81_vocabulary | propext |
| C81 | C81_assign | propext |
| C81 | C81_equal | propext |
| C81 | C81_unknown | propext |
| C81 | C81_true | propext, Classical.choice, Quot.sound |
| C81 | C81_violated | propext |
| C81 | C81_violated_readonly | propext |
| C82 | C82_last | propext, Classical.choice, Quot.sound |
| C82 | C82_determined | none |
| C82 | C82_suits | propext, Classical.choice, Quot.sound |
| C82 | C82_refused | propext |
| C82 | C82_new_partial | propext |
| C82 | C82_violated_description | propext, Classical.choice, Quot.sound |
| C82 | C82_violated_element | propext |
| C83 | C83_created | propext, Classical.choice, Quot.sound |
| C83 | C83_accepted | propext, Classical.choice, Quot.sound |
| C83 | C83_refused | propext, Classical.choice, Quot.sound |
| C83 | C83_violated_resource | propext |
| C83 | C83_error | propext |
| C83 | C83_violated_status | propext |
| C83 | C83_violated_argument | propext |
| C84 | C84_exempt | propext, Classical.choice, Quot.sound |
| C84 | C84_data | propext, Quot.sound |
| C84 | C84_status | propext, Classical.choice, Quot.sound |
| C84 | C84_violated_closed | propext, Classical.choice, Quot.sound |
| C84 | C84_violated_case | propext, Classical.choice, Quot.sound |
| C85 | C85_same | propext, Quot.sound |
| C85 | C85_choice | none |
| C85 | C85_default | none |
| C85 | C85_violated | none |
| C86 | C86_queries | propext, Classical.choice, Quot.sound |
| C86 | C86_settled_rules | propext, Classical.choice, Quot.sound |
| C86 | C86_settled_policies | propext, Classical.choice, Quot.sound |
| C87 | C87_inline | propext, Classical.choice, Quot.sound |
| C87 | C87_split_first | propext, Classical.choice, Quot.sound |
| C87 | C87_split_overrides_partial | propext, Classical.choice, Quot.sound |
| C87 | C87_split_never_grants | propext, Classical.choice, Quot.sound |
| C87 | C87_violated | propext, Classical.choice, Quot.sound |
| C87 | C87_groups_partial | propext, Classical.choice, Quot.sound |
| C87 | C87_groups_never_grants | propext, Classical.choice, Quot.sound |
| C87 | C87_groups_violated | propext, Classical.choice, Quot.sound |
| C88 | C88_functional | propext, Classical.choice, Quot.sound |
| C88 | C88_respaced | propext, Classical.choice, Quot.sound |
| C88 | C88_request_general | propext, Classical.choice, Quot.sound |
| C88 | C88_request | propext, Classical.choice, Quot.sound |
| C88 | C88_response | propext, Classical.choice, Quot.sound |
| C88 | C88_conversation | propext, Classical.choice, Quot.sound |
| C88 | C88_registry | propext, Classical.choice, Quot.sound |
| C88 | C88_violated_space | propext, Classical.choice, Quot.sound |
| C88 | C88_violated_injection | propext, Classical.choice, Quot.sound |
| C88 | C88_violated_granted | propext, Classical.choice, Quot.sound |
| C89 | C89_select | propext, Classical.choice, Quot.sound |
| C89 | C89_layout | propext, Classical.choice, Quot.sound |
| C89 | C89_conversation | propext, Classical.choice, Quot.sound |
| C89 | C89_arrives | propext, Classical.choice, Quot.sound |
| C89 | C89_means | propext, Classical.choice, Quot.sound |
| C89 | C89_violated_predicate | propext, Classical.choice, Quot.sound |
| C89 | C89_violated_inner | propext, Classical.choice, Quot.sound |
| C90 | C90_values | propext, Classical.choice, Quot.sound |
| C90 | C90_same | propext, Classical.choice, Quot.sound |
| C90 | C90_replace | propext, Classical.choice, Quot.sound |
| C90 | C90_policy | propext, Classical.choice, Quot.sound |
| C90 | C90_answer | propext, Classical.choice, Quot.sound |
| C90 | C90_written | propext, Classical.choice, Quot.sound |
| C90 | C90_violated_namespace | propext, Classical.choice, Quot.sound |
| C90 | C90_violated_two_actions | propext, Classical.choice, Quot.sound |
| C90 | C90_violated_no_action | propext, Classical.choice, Quot.sound |
| C90 | C90_violated_empty | propext, Classical.choice, Quot.sound |
| C91 | C91_response | propext, Classical.choice, Quot.sound |
| C91 | C91_never_grants | propext, Classical.choice, Quot.sound |
| C91 | C91_policy | propext, Classical.choice, Quot.sound |
| C91 | C91_undisturbed | propext, Classical.choice, Quot.sound |
| C91 | C91_unreliable | propext, Classical.choice, Quot.sound |
| C91 | C91_recovers | propext, Classical.choice, Quot.sound |
| C91 | C91_can_deny | propext, Classical.choice, Quot.sound |
| C91 | C91_silence_may_grant | propext, Classical.choice, Quot.sound |
| C91 | C91_context_error | propext, Classical.choice, Quot.sound |
| C92 | C92_alike | propext, Classical.choice, Quot.sound |
| C92 | C92_order_partial | propext, Classical.choice, Quot.sound |
| C92 | C92_handler_partial | propext, Classical.choice, Quot.sound |
| C92 | C92_violated_subjects | propext, Classical.choice, Quot.sound |
| C93 | C93_target | propext, Classical.choice, Quot.sound |
| C93 | C93_policy | propext, Classical.choice, Quot.sound |
| C94 | C94_names | propext, Classical.choice, Quot.sound |
| C94 | C94_must_differ | propext, Classical.choice, Quot.sound |
| C95 | C95_registries | propext, Classical.choice, Quot.sound |
| C95 | C95_policy | propext, Classical.choice, Quot.sound |
| C95 | C95_load | propext, Classical.choice, Quot.sound |
| C95 | C95_load_local | propext, Classical.choice, Quot.sound |
| C95 | C95_request | propext, Classical.choice, Quot.sound |
| C95 | C95_decision | propext, Classical.choice, Quot.sound |
| C95 | C95_service | propext, Classical.choice, Quot.sound |
| C95 | C95_types_needed | propext |
| C96 | C96_unused_partial | propext, Classical.choice, Quot.sound |
| C96 | C96_first_use | propext, Classical.choice, Quot.sound |
| C96 | C96_violated_override | propext, Classical.choice, Quot.sound |
| C96 | C96_violated_delete | propext, Classical.choice, Quot.sound |
| C97 | C97_versions | propext, Classical.choice, Quot.sound |
| C97 | C97_once | propext, Classical.choice, Quot.sound |
| C97 | C97_snapshot_partial | propext, Classical.choice, Quot.sound |
| C97 | C97_pdp_partial | propext, Classical.choice, Quot.sound |
| C97 | C97_violated_mixed | propext, Classical.choice, Quot.sound |
| C97 | C97_violated_kind | propext, Classical.choice, Quot.sound |
| C98 | C98_registered_partial | propext, Classical.choice, Quot.sound |
| C98 | C98_reads_partial | propext, Classical.choice, Quot.sound |
| C98 | C98_registry | propext, Classical.choice, Quot.sound |
| C98 | C98_written | propext, Classical.choice, Quot.sound |
| C98 | C98_requests | propext, Classical.choice, Quot.sound |
| C98 | C98_finishes | propext, Classical.choice, Quot.sound |
| C98 | C98_uninterrupted | propext, Classical.choice, Quot.sound |
| C98 | C98_violated_reading | propext, Classical.choice, Quot.sound |
| C98 | C98_violated_undeclared | propext, Classical.choice, Quot.sound |
| C98 | C98_violated_fails | propext, Classical.choice, Quot.sound |
| C98 | C98_violated_lasting | propext, Classical.choice, Quot.sound |
| C99 | C99_local | propext, Quot.sound |
| C99 | C99_namespace | propext, Classical.choice, Quot.sound |
| C99 | C99_parts | propext, Classical.choice, Quot.sound |
| C99 | C99_equal | propext, Classical.choice, Quot.sound |
| C99 | C99_text_partial | propext, Classical.choice, Quot.sound |
| C99 | C99_history | propext |
| C99 | C99_equivalence | propext |
| C99 | C99_operands | propext |
| C99 | C99_violated_text | propext, Classical.choice, Quot.sound |
| C99 | C99_violated_hash | none |
| C99 | C99_form_needed | propext |
