{
 "claims": [
  {
   "property": "C01",
   "status": "proved",
   "theorems": [
    "Xacml.C01_rule_deny_overrides",
    "Xacml.C01_C02_unset_effect",
    "Xacml.rules_run"
   ],
   "note": "Policy-level decision equals the C.1 table and exactly the rules up to the first Deny are run; rules without an effect covered by the second theorem."
  },
  {
   "property": "C02",
   "status": "proved",
   "theorems": [
    "Xacml.C02_rule_permit_overrides",
    "Xacml.C01_C02_unset_effect",
    "Xacml.rules_run"
   ],
   "note": "As C01 with Permit."
  },
  {
   "property": "C03",
   "status": "proved",
   "theorems": [
    "Xacml.C03_rule_first_applicable",
    "Xacml.C03_policy_first_applicable",
    "Xacml.children_run"
   ],
   "note": "Both families, with laziness."
  },
  {
   "property": "C04",
   "status": "proved",
   "theorems": [
    "Xacml.C04_policy_deny_overrides"
   ],
   "note": "With laziness."
  },
  {
   "property": "C05",
   "status": "proved",
   "theorems": [
    "Xacml.C05_policy_permit_overrides"
   ],
   "note": "With laziness."
  },
  {
   "property": "C06",
   "status": "proved",
   "theorems": [
    "Xacml.C06_total",
    "Xacml.C06_no_policy",
    "Xacml.C06_rule_total"
   ],
   "note": "Totality of PDP.evaluate for every policy, request object, PIP, regex engine and custom function."
  },
  {
   "property": "C07",
   "status": "proved",
   "theorems": [
    "Xacml.C07_not_matched",
    "Xacml.C07_target_fails",
    "Xacml.C07_matched",
    "Xacml.C07_no_target"
   ],
   "note": "For rules, policies and policy sets; the final world shows nothing else is evaluated."
  },
  {
   "property": "C08",
   "status": "proved",
   "theorems": [
    "Xacml.C08_target_and_or_and",
    "Xacml.C08_target_fails_iff"
   ],
   "note": ""
  },
  {
   "property": "C09",
   "status": "partial",
   "theorems": [
    "Xacml.C09_partial",
    "Xacml.C09_error_partial",
    "Xacml.C09_entry_violated",
    "Xacml.C09_section_violated"
   ],
   "note": "The code violates the property: a failing match element is never absorbed. Proved: agreement with the tables when no match fails, and no invented errors; witnesses for both deviations."
  },
  {
   "property": "C10",
   "status": "proved",
   "theorems": [
    "Xacml.C10_match_exists",
    "Xacml.C10_match_error",
    "Xacml.C10_no_bag",
    "Xacml.C10_boolean_functions"
   ],
   "note": "Stated for debug logging off; see C54 for debug logging."
  },
  {
   "property": "C100",
   "status": "partial",
   "theorems": [
    "Xacml.C100_registering",
    "Xacml.C100_unrelated",
    "Xacml.C100_last",
    "Xacml.C100_afterwards",
    "Xacml.C100_violated_mixed",
    "Xacml.C100_violated_permit"
   ],
   "note": "Proved if no class is registered, between begin and end of an evaluation, for a data type that the policy's designators or selectors ask for. Without that it is violated: the classes are looked up anew by each designator and selector, so one evaluation can use both the old and the new registry, give a decision neither gives (C100_violated_mixed), and permit what neither permits (C100_violated_permit)."
  },
  {
   "property": "C101",
   "status": "proved",
   "theorems": [
    "Xacml.C101_rules",
    "Xacml.C101_rules_never_grants",
    "Xacml.C101_policies",
    "Xacml.C101_policies_never_grants",
    "Xacml.C101_separate_needed",
    "Xacml.C101_success_needed"
   ],
   "note": "For complete policies and PIPs without state. C101_separate_needed and C101_success_needed show that the conditions in the statement cannot be left out: two restrictions of the same section become alternatives, and failing targets change NotApplicable to Indeterminate, and Indeterminate to Deny in deny-overrides policy sets."
  },
  {
   "property": "C102",
   "status": "proved",
   "theorems": [
    "Xacml.C102_rules",
    "Xacml.C102_rules_never_grants",
    "Xacml.C102_policies",
    "Xacml.C102_policies_never_grants",
    "Xacml.C102_success_needed"
   ],
   "note": "For complete policies and PIPs without state. C102_success_needed: a failing alternative keeps the joint rule from applying although another alternative is true, and in permit-overrides policy sets separate policies can permit what a joint one denies."
  },
  {
   "property": "C103",
   "status": "partial",
   "theorems": [
    "Xacml.C103_exceptions",
    "Xacml.C103_context_partial",
    "Xacml.C103_count",
    "Xacml.C103_violated"
   ],
   "note": "C103_exceptions says for all standard functions exactly which exception is raised for which arguments. Violated by -bag, -regexp-match, concatenate, -match and round, which also raise TypeError, ValueError, OverflowError or re.error (C103_violated), so C103_context_partial is for equality, one-and-only, at-least-one-member-of, and, not."
  },
  {
   "property": "C104",
   "status": "proved",
   "theorems": [
    "Xacml.C104_sees_more",
    "Xacml.C104_more_attributes",
    "Xacml.C104_equality",
    "Xacml.C104_pattern",
    "Xacml.C104_searching_needed",
    "Xacml.C104_deny_set_needed",
    "Xacml.C104_present_needed"
   ],
   "note": "For Deny, deny-overrides policy sets are excluded: they answer Deny when an attribute is missing (C104_deny_set_needed). C104_sees_more also covers context handlers and selectors. The other _needed theorems show that not, one-and-only, rules of the other effect and missing required attributes really make a difference."
  },
  {
   "property": "C105",
   "status": "proved",
   "theorems": [
    "Xacml.C105_values",
    "Xacml.C105_unmentioned",
    "Xacml.C105_alike",
    "Xacml.C105_must_differ",
    "Xacml.C105_must_compare"
   ],
   "note": "C105_must_differ and C105_must_compare show that the replacement must be one-to-one and that regexp-match and concatenate must be left out. Policies need not be complete, and the context handler may have a memory."
  },
  {
   "property": "C106",
   "status": "partial",
   "theorems": [
    "Xacml.C106_violated",
    "Xacml.C106_algorithm",
    "Xacml.C106_policy_partial",
    "Xacml.C106_local_partial",
    "Xacml.C106_loading_partial",
    "Xacml.C106_flawless_partial",
    "Xacml.C106_standard_partial"
   ],
   "note": "Violated: adding Obligations, combiner parameters, a variable definition, a rule with a misspelt effect or PolicyDefaults with just a comment to any readable policy raises NotImplementedError, ImportError or AttributeError, an unknown combining algorithm TypeError. Proved: the exception is an XMLParseError or some element of the document (or of one fetched) has one of thirteen listed flaws that accounts for it; without flaws a document is read or an XMLParseError is raised; with the package's own registries nine exceptions are possible."
  },
  {
   "property": "C107",
   "status": "partial",
   "theorems": [
    "Xacml.C107_violated",
    "Xacml.C107_violated_decision",
    "Xacml.C107_request_partial",
    "Xacml.C107_response_partial",
    "Xacml.C107_kinds_partial"
   ],
   "note": "Violated: an attribute without identifier or DataType, or with a value of an unknown DataType, added to any readable request raises TypeError; a decision that is none of the four AttributeError. Proved: the exception is an XMLParseError or one of the listed flaws of an Attribute or Decision element accounts for it, so besides it only TypeError and AttributeError are possible."
  },
  {
   "property": "C108",
   "status": "partial",
   "theorems": [
    "Xacml.C108_rule",
    "Xacml.C108_policy",
    "Xacml.C108_partial",
    "Xacml.C108_twice",
    "Xacml.C108_violated"
   ],
   "note": "Proved without restriction for rules, policies and first-applicable policy sets; for deny-overrides and permit-overrides policy sets if their members are not Indeterminate. Violated otherwise: a permit-overrides set with an Indeterminate member is Indeterminate, its mirror image denies (as XACML 2.0 appendix C prescribes)."
  },
  {
   "property": "C109",
   "status": "proved",
   "theorems": [
    "Xacml.C109_repeating"
   ],
   "note": "For all policies related by any sequence of such changes; rules that are moved have an effect, as all rules read from documents have."
  },
  {
   "property": "C11",
   "status": "partial",
   "theorems": [
    "Xacml.C11_partial",
    "Xacml.C11_effect_iff_truthy",
    "Xacml.C11_violated"
   ],
   "note": "The code uses Python truthiness: a condition whose value is the boolean attribute value false fires. Proved when the condition value is a native boolean, and the exact truthiness statement without that hypothesis."
  },
  {
   "property": "C110",
   "status": "partial",
   "theorems": [
    "Xacml.C110_partial",
    "Xacml.C110_never_grants",
    "Xacml.C110_violated"
   ],
   "note": "Proved if the conditions of the rules whose targets are narrowed can be evaluated for the request, in particular for all rules without a condition. Otherwise false: a rule that was Indeterminate no longer applies and a later rule permits (C110_violated)."
  },
  {
   "property": "C111",
   "status": "partial",
   "theorems": [
    "Xacml.C111_partial",
    "Xacml.C111_never_grants",
    "Xacml.C111_violated"
   ],
   "note": "Proved if the targets that are widened can be evaluated for the request, or the rule always denies after the change. Otherwise false: a rule that was Indeterminate no longer applies and another rule permits (C111_violated)."
  },
  {
   "property": "C112",
   "status": "proved",
   "theorems": [
    "Xacml.C112_boolean_algebra",
    "Xacml.C112_expression"
   ],
   "note": "For all expressions related by any sequence of such steps, and all policies with conditions so related."
  },
  {
   "property": "C113",
   "status": "proved",
   "theorems": [
    "Xacml.C113_target_as_condition"
   ],
   "note": "Rules with a condition besides the target are not covered: there the failing condition of a rule whose target is false would matter."
  },
  {
   "property": "C114",
   "status": "proved",
   "theorems": [
    "Xacml.C114_target",
    "Xacml.C114_policy",
    "Xacml.C114_elements_matter"
   ],
   "note": "C114_elements_matter shows that the same match elements are needed: a redundant alternative with a match element that fails makes a Permit Indeterminate."
  },
  {
   "property": "C115",
   "status": "proved",
   "theorems": [
    "Xacml.C115_default",
    "Xacml.C115_decides"
   ],
   "note": "C115_default for one policy or policy set, C115_decides for trees of any depth. For context handlers that answer equal questions equally."
  },
  {
   "property": "C116",
   "status": "proved",
   "theorems": [
    "Xacml.C116_facts",
    "Xacml.C116_handler",
    "Xacml.C116_repetition_matters"
   ],
   "note": "Custom functions must not look at the order of bags, and XPath must find the same in both requests where the policy has selectors. C116_repetition_matters shows that how often something is said counts."
  },
  {
   "property": "C117",
   "status": "proved",
   "theorems": [
    "Xacml.C117_dead",
    "Xacml.C117_always"
   ],
   "note": "For complete policies and context handlers that answer the same question alike."
  },
  {
   "property": "C118",
   "status": "proved",
   "theorems": [
    "Xacml.C118_excerpt",
    "Xacml.C118_select",
    "Xacml.C118_failing_counts"
   ],
   "note": "For complete policies and context handlers that answer the same question alike. C118_failing_counts is the case of a target that cannot be evaluated."
  },
  {
   "property": "C12",
   "status": "proved",
   "theorems": [
    "Xacml.C12_permit_has_witness",
    "Xacml.C12_no_permit_rule"
   ],
   "note": "Whole trees of policies and policy sets, any nesting."
  },
  {
   "property": "C13",
   "status": "proved",
   "theorems": [
    "Xacml.C13_designator_exact",
    "Xacml.C13_designated_iff",
    "Xacml.C13_otherwise"
   ],
   "note": "All four categories, no PIP; with a PIP see C17_subject_values."
  },
  {
   "property": "C14",
   "status": "proved",
   "theorems": [
    "Xacml.C14_present",
    "Xacml.C14_missing_iff",
    "Xacml.C14_not_required",
    "Xacml.C14_selector"
   ],
   "note": "Designators with any PIP, and selectors."
  },
  {
   "property": "C15",
   "status": "proved",
   "theorems": [
    "Xacml.C15_designator",
    "Xacml.C15_selector",
    "Xacml.C15_bag_function"
   ],
   "note": ""
  },
  {
   "property": "C16",
   "status": "proved",
   "theorems": [
    "Xacml.C16_one_query_per_subject",
    "Xacml.C16_no_query",
    "Xacml.C16_own_attributes_first",
    "Xacml.C17_subject_values"
   ],
   "note": ""
  },
  {
   "property": "C17",
   "status": "partial",
   "theorems": [
    "Xacml.C17_violated",
    "Xacml.C17_partial",
    "Xacml.C17_added_iff",
    "Xacml.C17_subject_values"
   ],
   "note": "The code keeps duplicates within one PIP answer (witness). Proved: values already known are never added again, and no duplicates if no single answer contains duplicates."
  },
  {
   "property": "C18",
   "status": "proved",
   "theorems": [
    "Xacml.C18_apply",
    "Xacml.C18_apply_argument_fails"
   ],
   "note": ""
  },
  {
   "property": "C19",
   "status": "proved",
   "theorems": [
    "Xacml.C19_and",
    "Xacml.C19_and_rejects",
    "Xacml.C19_not"
   ],
   "note": ""
  },
  {
   "property": "C20",
   "status": "proved",
   "theorems": [
    "Xacml.C20_equal",
    "Xacml.C20_equal_rejects",
    "Xacml.C20_equal_symm",
    "Xacml.C20_equal_refl",
    "Xacml.C20_match_agrees"
   ],
   "note": "Equality of native values specified independently in Spec/Equality.lean."
  },
  {
   "property": "C21",
   "status": "proved",
   "theorems": [
    "Xacml.C21_one_and_only",
    "Xacml.C21_one_and_only_rejects",
    "Xacml.C21_bag_then_one_and_only"
   ],
   "note": ""
  },
  {
   "property": "C22",
   "status": "proved",
   "theorems": [
    "Xacml.C22_member",
    "Xacml.C22_rejects",
    "Xacml.C22_set_like"
   ],
   "note": ""
  },
  {
   "property": "C23",
   "status": "proved",
   "theorems": [
    "Xacml.C23_concatenate",
    "Xacml.C23_rejects"
   ],
   "note": ""
  },
  {
   "property": "C24",
   "status": "proved",
   "theorems": [
    "Xacml.C24_regexp_match",
    "Xacml.C24_cache_transparent"
   ],
   "note": "The regex engine is a parameter; histories of PDP, expression and function evaluations."
  },
  {
   "property": "C25",
   "status": "proved",
   "theorems": [
    "Xacml.C25_history_independent"
   ],
   "note": ""
  },
  {
   "property": "C26",
   "status": "proved",
   "theorems": [
    "Xacml.C26_rules",
    "Xacml.C26_policies"
   ],
   "note": "Rules are required to have an effect, as every rule read from XML has."
  },
  {
   "property": "C27",
   "status": "proved",
   "theorems": [
    "Xacml.C27_rules",
    "Xacml.C27_policies"
   ],
   "note": "All six algorithms, effects may be unset."
  },
  {
   "property": "C28",
   "status": "partial",
   "theorems": [
    "Xacml.C28_violated",
    "Xacml.C28_violated_permit",
    "Xacml.C28_partial",
    "Xacml.C28_assign",
    "Xacml.C28_responses_share_constants"
   ],
   "note": "Responses share the mutable constants: assigning to one changes later decisions (witness). Proved for histories without successful assignments to them."
  },
  {
   "property": "C29",
   "status": "partial",
   "theorems": [
    "Xacml.C29_violated",
    "Xacml.C29_partial"
   ],
   "note": "Every response has status OK, including Indeterminate ones (witness)."
  },
  {
   "property": "C30",
   "status": "partial",
   "theorems": [
    "Xacml.C30_violated",
    "Xacml.C30_partial"
   ],
   "note": "No response ever carries an obligation (witness for one that should)."
  },
  {
   "property": "C31",
   "status": "partial",
   "theorems": [
    "Xacml.C31_violated",
    "Xacml.C31_step_partial",
    "Xacml.C31_history_partial"
   ],
   "note": "A rejected identifier is nevertheless recorded while the old algorithm stays in force (witness). Proved: which identifier and which algorithm are in force after every history."
  },
  {
   "property": "C32",
   "status": "proved",
   "theorems": [
    "Xacml.C32_rules",
    "Xacml.C32_policies"
   ],
   "note": ""
  },
  {
   "property": "C33",
   "status": "proved",
   "theorems": [
    "Xacml.C33_exclusive",
    "Xacml.C33_failed",
    "Xacml.C33_types",
    "Xacml.C33_value"
   ],
   "note": ""
  },
  {
   "property": "C34",
   "status": "proved",
   "theorems": [
    "Xacml.C34_stable"
   ],
   "note": "Any state, any importer; the importer (module loading) is a parameter."
  },
  {
   "property": "C35",
   "status": "proved",
   "theorems": [
    "Xacml.C35_standard",
    "Xacml.C35_implemented",
    "Xacml.C35_loadAllCore",
    "Xacml.C35_uri_string_concatenate"
   ],
   "note": "All 212 standard URNs after every history; the finite table is checked by the kernel, the histories by an invariant. uri-string-concatenate is listed but not implemented."
  },
  {
   "property": "C36",
   "status": "proved",
   "theorems": [
    "Xacml.C36_lookup",
    "Xacml.C36_registered_exists",
    "Xacml.C36_standard_protected",
    "Xacml.C36_atomic"
   ],
   "note": ""
  },
  {
   "property": "C37",
   "status": "proved",
   "theorems": [
    "Xacml.C37_lookup",
    "Xacml.C37_conservative",
    "Xacml.C37_rejects",
    "Xacml.C37_distinct"
   ],
   "note": ""
  },
  {
   "property": "C38",
   "status": "proved",
   "theorems": [
    "Xacml.C38_native",
    "Xacml.C38_assign",
    "Xacml.C38_base64_unsettable",
    "Xacml.C38_types"
   ],
   "note": "base64Binary has no native type, so such a value can never be set."
  },
  {
   "property": "C39",
   "status": "proved",
   "theorems": [
    "Xacml.C39_same_class",
    "Xacml.C39_other_class",
    "Xacml.C39_equivalence"
   ],
   "note": ""
  },
  {
   "property": "C40",
   "status": "partial",
   "theorems": [
    "Xacml.C40_homogeneous",
    "Xacml.C40_atomic",
    "Xacml.C40_rejects",
    "Xacml.C40_adds_partial",
    "Xacml.C40_violated",
    "Xacml.C40_unchecked_calls",
    "Xacml.bag_extend_typedList"
   ],
   "note": "Items from a generator are consumed by the type check and not added (C40_violated, universal). The rest is proved; insert and item assignment, outside the property, are shown to be unchecked."
  },
  {
   "property": "C41",
   "status": "partial",
   "theorems": [
    "Xacml.C41_violated",
    "Xacml.C41_contains",
    "Xacml.C41_partial"
   ],
   "note": "An iterable with a repeated item puts it in twice (witness). Proved for iterables without repetition; containment for all."
  },
  {
   "property": "C42",
   "status": "partial",
   "theorems": [
    "Xacml.C42_lookup",
    "Xacml.C42_vetted",
    "Xacml.C42_violated",
    "Xacml.C42_get_partial"
   ],
   "note": "get never returns a given default (C42_violated, universal). The rest is proved."
  },
  {
   "property": "C43",
   "status": "partial",
   "theorems": [
    "Xacml.C43_violated",
    "Xacml.C43_update_error_violated",
    "Xacml.C43_keys_partial",
    "Xacml.C43_set"
   ],
   "note": "setdefault adds unknown keys; update with an unknown key raises TypeError (both shown). The rest is proved."
  },
  {
   "property": "C44",
   "status": "proved",
   "theorems": [
    "Xacml.C44_policy",
    "Xacml.C44_rules",
    "Xacml.C44_rejects",
    "Xacml.C44_description"
   ],
   "note": "The grammar is in Spec/Reader.lean; reading succeeds exactly on it, for every element tree and every registry of functions, classes and data type readers."
  },
  {
   "property": "C45",
   "status": "partial",
   "theorems": [
    "Xacml.C45_standard_library",
    "Xacml.C45_lxml_partial",
    "Xacml.C45_violated",
    "Xacml.C45_violated_defaults"
   ],
   "note": "Holds for every insertion with the standard library's parser. With lxml it is violated in AttributeValue, Description, XPathVersion, references and PolicyDefaults (witnesses); proved for every insertion elsewhere."
  },
  {
   "property": "C46",
   "status": "proved",
   "theorems": [
    "Xacml.C46_read",
    "Xacml.C46_load",
    "Xacml.C46_standard_readers",
    "Xacml.C46_local"
   ],
   "note": "For every tree, fetched documents included. Data type readers added by users must not look at namespaces themselves (stated as a hypothesis; the package's own satisfy it)."
  },
  {
   "property": "C47",
   "status": "partial",
   "theorems": [
    "Xacml.C47_partial",
    "Xacml.C47_exact",
    "Xacml.C47_violated"
   ],
   "note": "Violated: only DataTypes with native type str and a non-empty text can be read; exact characterisation proved."
  },
  {
   "property": "C48",
   "status": "proved",
   "theorems": [
    "Xacml.C48_local",
    "Xacml.C48_url",
    "Xacml.C48_unresolved",
    "Xacml.C48_complete",
    "Xacml.C48_new_finder"
   ],
   "note": "Both finders, all documents and finder states, any recursion limit. Finder states are coherent: a new finder is, and reading keeps it. Reading is also shown to succeed on every well-formed document whose references are registered."
  },
  {
   "property": "C49",
   "status": "proved",
   "theorems": [
    "Xacml.C49_first_wins",
    "Xacml.C49_atomic",
    "Xacml.C49_reading",
    "Xacml.C49_load_once"
   ],
   "note": "Histories of registrations by both methods, and of reading documents, failing ones included."
  },
  {
   "property": "C50",
   "status": "proved",
   "theorems": [
    "Xacml.C50_cycle"
   ],
   "note": "Termination is by Python's recursion limit, which the model has as a parameter; proved for every limit. Cycles are described by sets of URLs and identifiers closed under references; documents may change between fetches."
  },
  {
   "property": "C51",
   "status": "partial",
   "theorems": [
    "Xacml.C51_back",
    "Xacml.C51_partial",
    "Xacml.C51_violated_category",
    "Xacml.C51_violated_values",
    "Xacml.C51_violated_getchildren"
   ],
   "note": "Violated: subject categories, attributes without values and values that are not strings do not survive; nothing with attributes is read with the standard library of Python 3.9 and later. What comes back is characterised exactly for all requests (C51_back), and so are the requests that survive (C51_partial)."
  },
  {
   "property": "C52",
   "status": "partial",
   "theorems": [
    "Xacml.C52_back",
    "Xacml.C52_partial",
    "Xacml.C52_violated"
   ],
   "note": "Violated: results with a resource id cannot be written. What comes back is characterised exactly for all responses."
  },
  {
   "property": "C53",
   "status": "partial",
   "theorems": [
    "Xacml.C53_partial",
    "Xacml.C53_no_base",
    "Xacml.C53_empty",
    "Xacml.C53_violated"
   ],
   "note": "Violated for references starting with file://.//, which name an absolute file whatever the base path. All other references are proved."
  },
  {
   "property": "C54",
   "status": "partial",
   "theorems": [
    "Xacml.C54_violated",
    "Xacml.C54_partial",
    "Xacml.C54_quiet_functions"
   ],
   "note": "With debug logging on, a match function returning an attribute value makes the match fail (witness). Proved when no match function returns attribute values."
  },
  {
   "property": "C55",
   "status": "proved",
   "theorems": [
    "Xacml.C55_selector_values",
    "Xacml.C55_selector_fails"
   ],
   "note": "XPath engine is a parameter."
  },
  {
   "property": "C56",
   "status": "proved",
   "theorems": [
    "Xacml.C56_step",
    "Xacml.C56_history"
   ],
   "note": ""
  },
  {
   "property": "C57",
   "status": "partial",
   "theorems": [
    "Xacml.C57_violated",
    "Xacml.C57_partial"
   ],
   "note": "A one-shot iterator returned by the PIP for an empty bag is consumed by the type check; its values are lost. Proved for re-iterable answers."
  },
  {
   "property": "C58",
   "status": "partial",
   "theorems": [
    "Xacml.C58_violated",
    "Xacml.C58_round_partial"
   ],
   "note": "round only accepts native numbers, which policies cannot supply: on every attribute value it fails. Proved: ties-to-even rounding of native floats."
  },
  {
   "property": "C59",
   "status": "proved",
   "theorems": [
    "Xacml.C59_compositional"
   ],
   "note": ""
  },
  {
   "property": "C60",
   "status": "partial",
   "theorems": [
    "Xacml.C60_violated",
    "Xacml.C60_exceptions",
    "Xacml.C60_step_partial",
    "Xacml.C60_standard",
    "Xacml.C60_history_partial"
   ],
   "note": "An identifier without a function is recorded before the lookup fails (witness). Proved: what is in force after every history."
  },
  {
   "property": "C61",
   "status": "proved",
   "theorems": [
    "Xacml.C61_request"
   ],
   "note": "Needs an ElementTree implementation with getchildren; without it see C51_violated_getchildren."
  },
  {
   "property": "C62",
   "status": "proved",
   "theorems": [
    "Xacml.C62_response",
    "Xacml.C62_status"
   ],
   "note": ""
  },
  {
   "property": "C63",
   "status": "partial",
   "theorems": [
    "Xacml.C63_namespaces",
    "Xacml.C63_standard_library",
    "Xacml.C63_lxml_partial",
    "Xacml.C63_violated_value",
    "Xacml.C63_violated_empty"
   ],
   "note": "Violated with lxml: a comment within a value cuts the value off, and a comment makes an Attribute without values acceptable. The rest is proved for every document."
  },
  {
   "property": "C64",
   "status": "proved",
   "theorems": [
    "Xacml.C64_function",
    "Xacml.C64_expression",
    "Xacml.C64_target",
    "Xacml.C64_rule",
    "Xacml.C64_pdp"
   ],
   "note": "The semantics is Verif.Spec.Semantics."
  },
  {
   "property": "C65",
   "status": "partial",
   "theorems": [
    "Xacml.C65_bad_finder",
    "Xacml.C65_unparsable",
    "Xacml.C65_root",
    "Xacml.C65_agree",
    "Xacml.C65_kind",
    "Xacml.C65_default_finder",
    "Xacml.C65_violated_object",
    "Xacml.C65_violated_policyset"
   ],
   "note": "Violated: PDP.fromPolicySource without a finder fails for file objects and elements (NameError), PolicySet.fromSource fails for every document (TypeError). The rest is proved."
  },
  {
   "property": "C66",
   "status": "proved",
   "theorems": [
    "Xacml.C66_end_to_end",
    "Xacml.loaded_complete"
   ],
   "note": ""
  },
  {
   "property": "C67",
   "status": "partial",
   "theorems": [
    "Xacml.C67_namespaces",
    "Xacml.C67_comments",
    "Xacml.C67_lxml_partial"
   ],
   "note": "Proved for namespaces and for the standard library's parser; with lxml comments inside texts that are read do matter (C45_violated, C63_violated_value)."
  },
  {
   "property": "C68",
   "status": "proved",
   "theorems": [
    "Xacml.C68_relevant",
    "Xacml.C68_unnamed",
    "Xacml.C68_grouping"
   ],
   "note": "C68_grouping also shows that SubjectCategory is ignored by designators."
  },
  {
   "property": "C69",
   "status": "proved",
   "theorems": [
    "Xacml.C69_labels"
   ],
   "note": ""
  },
  {
   "property": "C70",
   "status": "partial",
   "theorems": [
    "Xacml.C70_deny_rules",
    "Xacml.C70_permit_rules",
    "Xacml.C70_violated_permit_set"
   ],
   "note": "Proved for Deny rules in any tree and for Permit rules in one policy. Violated for Permit rules below a deny-overrides policy set: a failing Permit rule turns Permit into Deny (policy deny-overrides counts Indeterminate as Deny)."
  },
  {
   "property": "C71",
   "status": "partial",
   "theorems": [
    "Xacml.C71_select",
    "Xacml.C71_evaluate",
    "Xacml.C71_match",
    "Xacml.C71_relative",
    "Xacml.C71_lxml",
    "Xacml.C71_violated_root",
    "Xacml.C71_violated_duplicates",
    "Xacml.C71_violated_prefix",
    "Xacml.C71_violated_text",
    "Xacml.C71_violated_blank",
    "Xacml.C71_violated_position",
    "Xacml.C71_violated_lxml_value"
   ],
   "note": "Paths of /, //, . and .. steps with names, wildcards and all predicates ElementTree knows: exactly the named elements, counted from the root element; once each if // occurs at most once, in document order if // is only in the last step. Violated: an absolute path that names the root element finds nothing; with // twice elements are selected twice; prefixes are refused with SyntaxError, text() and @attribute steps with KeyError; a blank, as in a union of paths, makes the path find nothing; positions after another predicate or a wildcard count siblings with the same tag; a selector of a non-string data type, or one that finds an element without text, raises TypeError (last part of C71_evaluate). With lxml the XPath engine is a parameter: one value per node it finds (C71_lxml), but one per character of a string result."
  },
  {
   "property": "C72",
   "status": "partial",
   "theorems": [
    "Xacml.C72_named_partial",
    "Xacml.C72_resolves",
    "Xacml.C72_unsupported",
    "Xacml.C72_violated",
    "Xacml.C72_violated_letters"
   ],
   "note": "Violated: identifiers that are not in the standard are taken, for instance String-equal, url-string-equal, or further parts between colons after the namespace (C72_violated, C72_resolves). Proved for every string: a function that is returned is the one the last part of the identifier names. The first letter may even be one outside ASCII whose capital is the right letter (C72_violated_letters)."
  },
  {
   "property": "C73",
   "status": "proved",
   "theorems": [
    "Xacml.C73_interleaved",
    "Xacml.C73_schedule_independent",
    "Xacml.C73_finishes",
    "Xacml.C73_afterwards",
    "Xacml.C73_uninterrupted"
   ],
   "note": "Steps are single reads and writes of shared entries; PIPs are stateless (a PIP call is one step)."
  },
  {
   "property": "C74",
   "status": "partial",
   "theorems": [
    "Xacml.C74_lookups",
    "Xacml.C74_standard",
    "Xacml.C74_registered_partial",
    "Xacml.C74_agree_partial",
    "Xacml.C74_finishes",
    "Xacml.C74_uninterrupted",
    "Xacml.C74_violated"
   ],
   "note": "Violated: for an identifier that is not in the standard but starts with its namespace, a lookup under way overwrites a registration that has already returned with 'not implemented' (C74_violated). Proved outside these namespaces and when nobody looked the identifier up before the registration returned, with any number of registrations of it; once they have all ended all later lookups agree (C74_agree_partial). Deletions in parallel are not modelled."
  },
  {
   "property": "C75",
   "status": "partial",
   "theorems": [
    "Xacml.C75_names_differ",
    "Xacml.C75_copy",
    "Xacml.C75_deepcopy_response_partial",
    "Xacml.C75_deepcopy_response_reads",
    "Xacml.C75_deepcopy_request",
    "Xacml.C75_pickle_request",
    "Xacml.C75_pickle_response",
    "Xacml.C75_policy_violated",
    "Xacml.C75_attribute_violated",
    "Xacml.C75_silent_violated"
   ],
   "note": "Holds for copy.copy of requests and responses. Violated otherwise, and exactly described: deep copies of responses lose the contents of every status and fail with an obligation; deep copies of requests fail as soon as there is an attribute and lose subject categories; pickles of requests fail with any subject, resource or attribute, pickles of responses with any result; policies and their parts cannot be copied at all; matches and attribute values copy to empty objects without an error. Python's copy and pickle protocols are modelled by their documented steps."
  },
  {
   "property": "C76",
   "status": "partial",
   "theorems": [
    "Xacml.C76_reads_partial",
    "Xacml.C76_strip",
    "Xacml.C76_unambiguous",
    "Xacml.C76_succeeds",
    "Xacml.C76_depends",
    "Xacml.C76_violated_registry",
    "Xacml.C76_violated_text",
    "Xacml.C76_violated_attribute",
    "Xacml.C76_violated_tail",
    "Xacml.C76_violated_no_namespace",
    "Xacml.C76_violated_prefixes",
    "Xacml.C76_lxml_succeeds",
    "Xacml.C76_lxml_partial",
    "Xacml.C76_lxml_violated_fails",
    "Xacml.C76_lxml_violated_prefix",
    "Xacml.C76_lxml_violated_namespace"
   ],
   "note": "Proved for trees whose elements have namespaces, whose texts and attribute values need no escapes and that have text after a child only after the last one, and for registries with distinct prefixes for the tree's namespaces. Violated otherwise: nothing is escaped, so different trees print the same; text between children is lost; elements without namespace give a document that is not XML; two namespaces under one prefix (makeEtreeElement allows this) change namespaces. It succeeds exactly if there are prefixes ns0 to ns255 left for the new namespaces (C76_succeeds); if it fails the prefixes it added stay in the registry (C76_violated_registry). With lxml the same holds for documents in which prefixes and namespaces correspond one to one throughout (a default namespace is printed with the prefix None); it succeeds exactly if there are no comments and all names are in declared namespaces (C76_lxml_succeeds). Violated with lxml: comments, elements without namespace and xml:lang make it fail; a second prefix for a namespace is not declared; a prefix that is declared again changes namespaces."
  },
  {
   "property": "C77",
   "status": "partial",
   "theorems": [
    "Xacml.C77_rewind",
    "Xacml.C77_nested_partial",
    "Xacml.C77_print",
    "Xacml.C77_violated_lost",
    "Xacml.C77_violated_overlap"
   ],
   "note": "Exactly what happens (C77_rewind): deleting a reader sets the registry back to what it was when that reader was created. So the property holds if readers are deleted in the reverse order of their creation and nothing is registered meanwhile (C77_nested_partial); it is violated for registrations made while a reader exists (lost) and for readers that overlap otherwise (an entry for the empty namespace stays). Without registrations documents all of whose elements have namespaces are printed the same throughout (C77_print)."
  },
  {
   "property": "C78",
   "status": "proved",
   "theorems": [
    "Xacml.C78_spellings",
    "Xacml.C78_nested",
    "Xacml.C78_errors",
    "Xacml.C78_type",
    "Xacml.C78_bare"
   ],
   "note": "Import machinery, attribute lookup and issubclass are parameters (PyWorld)."
  },
  {
   "property": "C79",
   "status": "partial",
   "theorems": [
    "Xacml.C79_violated",
    "Xacml.C79_partial",
    "Xacml.C79_history",
    "Xacml.C79_result"
   ],
   "note": "Violated: the backup of sys.path is the same list, so a directory that is given stays on the search path for ever, once for each call (C79_history says exactly what the path is). Holds for calls without a directory (C79_partial); what is called is right (C79_result)."
  },
  {
   "property": "C80",
   "status": "partial",
   "theorems": [
    "Xacml.C80_registered",
    "Xacml.C80_inferred",
    "Xacml.C80_package",
    "Xacml.C80_violated",
    "Xacml.C80_violated_missing"
   ],
   "note": "Proved: registered readers, and the package's classes that have a reader. Violated: types of the same name share a reader (Subject of targets and of requests); EnvironmentMatch, EnvironmentAttributeDesignator, variables and obligations have none."
  },
  {
   "property": "C81",
   "status": "partial",
   "theorems": [
    "Xacml.C81_vocabulary",
    "Xacml.C81_assign",
    "Xacml.C81_equal",
    "Xacml.C81_unknown",
    "Xacml.C81_true",
    "Xacml.C81_violated",
    "Xacml.C81_violated_readonly"
   ],
   "note": "Violated: operands of other types raise UnboundLocalError; the predefined effects can be assigned to like any other."
  },
  {
   "property": "C82",
   "status": "partial",
   "theorems": [
    "Xacml.C82_last",
    "Xacml.C82_determined",
    "Xacml.C82_suits",
    "Xacml.C82_refused",
    "Xacml.C82_new_partial",
    "Xacml.C82_violated_description",
    "Xacml.C82_violated_element"
   ],
   "note": "Values are abstract (the classes they are instances of). Violated: the description of a new rule, and the XML element of new targets, matches and obligations, cannot be read (AttributeError). Identifiers that fail to be looked up are stored although an exception is raised (C31, C60)."
  },
  {
   "property": "C83",
   "status": "partial",
   "theorems": [
    "Xacml.C83_created",
    "Xacml.C83_accepted",
    "Xacml.C83_refused",
    "Xacml.C83_violated_resource",
    "Xacml.C83_error",
    "Xacml.C83_violated_status",
    "Xacml.C83_violated_argument"
   ],
   "note": "Violated: the resource id is lost always; the response of an error has status OK; an error made from anything but a string raises TypeError. The rest is proved."
  },
  {
   "property": "C84",
   "status": "partial",
   "theorems": [
    "Xacml.C84_exempt",
    "Xacml.C84_data",
    "Xacml.C84_status",
    "Xacml.C84_violated_closed",
    "Xacml.C84_violated_case"
   ],
   "note": "Violated: entries of no_proxy with capital letters have no effect (C84_violated_case); the connection stays open if reading fails (C84_violated_closed). The host of a URL is found as in urllib.parse, for URLs scheme://user@host:port/rest. What an opener with the default proxy handling does is outside the model."
  },
  {
   "property": "C85",
   "status": "partial",
   "theorems": [
    "Xacml.C85_same",
    "Xacml.C85_choice",
    "Xacml.C85_default",
    "Xacml.C85_violated"
   ],
   "note": "Holds in every history without assignments to Config.use_lxml after the first module is loaded; such an assignment gives modules loaded later the other library (C85_violated)."
  },
  {
   "property": "C86",
   "status": "proved",
   "theorems": [
    "Xacml.C86_queries",
    "Xacml.C86_settled_rules",
    "Xacml.C86_settled_policies"
   ],
   "note": "The queries are a sublist of one per designator and subject in document order; adding anything after a settled decision leaves decision, log and cache as they are. Which queries one designator makes: C16."
  },
  {
   "property": "C87",
   "status": "partial",
   "theorems": [
    "Xacml.C87_inline",
    "Xacml.C87_split_first",
    "Xacml.C87_split_overrides_partial",
    "Xacml.C87_split_never_grants",
    "Xacml.C87_violated",
    "Xacml.C87_groups_partial",
    "Xacml.C87_groups_never_grants",
    "Xacml.C87_groups_violated"
   ],
   "note": "Nested policy sets: proved for all algorithms, and so is splitting first-applicable policies. Splitting deny-overrides and permit-overrides policies is proved if no rule is Indeterminate; with failing rules the decision stays or becomes Deny (C87_split_never_grants), and it does turn Permit and Indeterminate into Deny (C87_violated)."
  },
  {
   "property": "C88",
   "status": "partial",
   "theorems": [
    "Xacml.C88_functional",
    "Xacml.C88_respaced",
    "Xacml.C88_request_general",
    "Xacml.C88_request",
    "Xacml.C88_response",
    "Xacml.C88_conversation",
    "Xacml.C88_registry",
    "Xacml.C88_violated_space",
    "Xacml.C88_violated_injection",
    "Xacml.C88_violated_granted"
   ],
   "note": "With the standard library's ElementTree. Proved for requests in which nothing needs escapes: what arrives is the request with white space around values removed (exactly the request if there is none; without resource content, or up to white space in it), for responses without exception, and for whole conversations. Whatever the library does leaves the registry of prefixes as needed. Violated: white space around values is lost, and a value that contains markup can make a request with further attributes arrive (C88_violated_injection), so that a request denied locally is permitted when sent (C88_violated_granted). Not proved for lxml."
  },
  {
   "property": "C89",
   "status": "partial",
   "theorems": [
    "Xacml.C89_select",
    "Xacml.C89_layout",
    "Xacml.C89_conversation",
    "Xacml.C89_arrives",
    "Xacml.C89_means",
    "Xacml.C89_violated_predicate",
    "Xacml.C89_violated_inner"
   ],
   "note": "With the standard library's ElementTree. Proved if all paths of the policy look at texts of elements without children only; for conversations, too. C89_means gives the meaning of selectors on the element in terms of the paths' own semantics. Violated without the condition: a path that compares or selects the text of an element with children depends on the white space in it."
  },
  {
   "property": "C90",
   "status": "partial",
   "theorems": [
    "Xacml.C90_values",
    "Xacml.C90_same",
    "Xacml.C90_replace",
    "Xacml.C90_policy",
    "Xacml.C90_answer",
    "Xacml.C90_written",
    "Xacml.C90_violated_namespace",
    "Xacml.C90_violated_two_actions",
    "Xacml.C90_violated_no_action",
    "Xacml.C90_violated_empty"
   ],
   "note": "With the standard library's ElementTree. Proved for request documents in which parts, attributes and values are in the context namespace and all values have text, for designators whose texts can be quoted and whose types have classes, without a context handler if they ask for the subject, and with exactly one action or environment if they ask for it; all requests that the package writes itself are such documents. Violated otherwise: attributes of other namespaces are seen by designators only, of several actions designators see the last one and paths all, without an action designators fail and paths find nothing, and values without text are errors for selectors only."
  },
  {
   "property": "C91",
   "status": "proved",
   "theorems": [
    "Xacml.C91_response",
    "Xacml.C91_never_grants",
    "Xacml.C91_policy",
    "Xacml.C91_undisturbed",
    "Xacml.C91_unreliable",
    "Xacml.C91_recovers",
    "Xacml.C91_can_deny",
    "Xacml.C91_silence_may_grant",
    "Xacml.C91_context_error"
   ],
   "note": "Evaluation is modelled once more with points at which a schedule may have exceptions raised (Model/Faults); C91_undisturbed proves that nothing else differs. Failing means raising: a context handler that fails by answering that there is no value can grant (C91_silence_may_grant). For NotApplicable the exceptions raised at these points must not be XacmlContextErrors (C91_context_error shows why); what the context handler, XPath engine and compiler raise is arbitrary. Failures can turn Permit into Deny in policy sets (C91_can_deny)."
  },
  {
   "property": "C92",
   "status": "partial",
   "theorems": [
    "Xacml.C92_alike",
    "Xacml.C92_order_partial",
    "Xacml.C92_handler_partial",
    "Xacml.C92_violated_subjects"
   ],
   "note": "Proved for requests without a context handler, and with one if the subjects stay in their order (their attributes and values may be reordered). Violated with a context handler if subjects are reordered: its values are weeded out against the values of the subjects before only, so a value may be in the bag once or twice depending on the order of the subjects, and one-and-only then fails or not. Custom functions in conditions must not look at the order of bags; what XPath finds must be the same up to order."
  },
  {
   "property": "C93",
   "status": "proved",
   "theorems": [
    "Xacml.C93_target",
    "Xacml.C93_policy"
   ],
   "note": ""
  },
  {
   "property": "C94",
   "status": "proved",
   "theorems": [
    "Xacml.C94_names",
    "Xacml.C94_must_differ"
   ],
   "note": "Attribute selectors see the document, so what XPath finds is assumed to be the same. C94_must_differ shows that the renaming must be one-to-one."
  },
  {
   "property": "C95",
   "status": "proved",
   "theorems": [
    "Xacml.C95_registries",
    "Xacml.C95_policy",
    "Xacml.C95_load",
    "Xacml.C95_load_local",
    "Xacml.C95_request",
    "Xacml.C95_decision",
    "Xacml.C95_service",
    "Xacml.C95_types_needed"
   ],
   "note": "The data types that designators and selectors of the policy ask for must have been registered (otherwise the policy did not work before; C95_types_needed). Functions that are added must have been unusable before."
  },
  {
   "property": "C96",
   "status": "partial",
   "theorems": [
    "Xacml.C96_unused_partial",
    "Xacml.C96_first_use",
    "Xacml.C96_violated_override",
    "Xacml.C96_violated_delete"
   ],
   "note": "Violated: a function keeps the class that was in force when it was looked up first, for instance by an earlier policy, even if its entry is deleted (C96_violated_override, C96_violated_delete: Indeterminate instead of Permit). C96_first_use says exactly which class is used; C96_unused_partial that the claim holds for functions not looked up before. For equal, match, bag, one-and-only and at-least-one-member-of functions; regular expression functions and string-concatenate look a class up when their module is imported, which is not modelled."
  },
  {
   "property": "C97",
   "status": "partial",
   "theorems": [
    "Xacml.C97_versions",
    "Xacml.C97_once",
    "Xacml.C97_snapshot_partial",
    "Xacml.C97_pdp_partial",
    "Xacml.C97_violated_mixed",
    "Xacml.C97_violated_kind"
   ],
   "note": "Violated: two references that name the same file in different ways, or a policy and a policy set of the same name, are resolved with two versions of it if its identifier or kind changes in between; with either version alone loading fails (C97_violated_mixed, C97_violated_kind). C97_versions says exactly what is fetched twice; C97_snapshot_partial that the claim holds for any edits that keep identifiers and kinds. The versions of different documents may stem from different times."
  },
  {
   "property": "C98",
   "status": "partial",
   "theorems": [
    "Xacml.C98_registered_partial",
    "Xacml.C98_reads_partial",
    "Xacml.C98_registry",
    "Xacml.C98_written",
    "Xacml.C98_requests",
    "Xacml.C98_finishes",
    "Xacml.C98_uninterrupted",
    "Xacml.C98_violated_reading",
    "Xacml.C98_violated_undeclared",
    "Xacml.C98_violated_fails",
    "Xacml.C98_violated_lasting"
   ],
   "note": "Violated: prettyPrint and readers put back the copy of the registry they made at their beginning, and with it undo what other threads have registered since. A response that is written meanwhile gets a prefix that is not declared (C98_violated_reading, C98_violated_undeclared), printing fails (C98_violated_fails), or the registry keeps one prefix for two namespaces (C98_violated_lasting). Proved for every schedule: documents whose namespaces are registered from the start come out right (C98_registered_partial, C98_reads_partial), and so do requests if threads only write requests (C98_written, C98_requests). Standard library variant; a step is one access to the attribute or to a dictionary."
  },
  {
   "property": "C99",
   "status": "partial",
   "theorems": [
    "Xacml.C99_local",
    "Xacml.C99_namespace",
    "Xacml.C99_parts",
    "Xacml.C99_equal",
    "Xacml.C99_text_partial",
    "Xacml.C99_history",
    "Xacml.C99_equivalence",
    "Xacml.C99_operands",
    "Xacml.C99_violated_text",
    "Xacml.C99_violated_hash",
    "Xacml.C99_form_needed"
   ],
   "note": "Equality is proved. Violated: assigning to localPart or namespaceURI changes what a name equals but not the text that is written (C99_violated_text), so C99_text_partial is for names that are not assigned to; names cannot be hashed at all (C99_violated_hash). Texts that are not of the form {namespace}local may be taken for names (C99_form_needed); C99_namespace and C99_local say exactly how any text is taken apart. Standard library variant."
  }
 ]
}