claim("C01", "proved", "C01_rule_deny_overrides C01_C02_unset_effect rules_run",
      "Policy-level decision equals the C.1 table and exactly the rules up to the first Deny are run; rules without an effect covered by the second theorem.")
claim("C02", "proved", "C02_rule_permit_overrides C01_C02_unset_effect rules_run", "As C01 with Permit.")
claim("C03", "proved", "C03_rule_first_applicable C03_policy_first_applicable children_run", "Both families, with laziness.")
claim("C04", "proved", "C04_policy_deny_overrides", "With laziness.")
claim("C05", "proved", "C05_policy_permit_overrides", "With laziness.")
claim("C06", "proved", "C06_total C06_no_policy C06_rule_total", "Totality of PDP.evaluate for every policy, request object, PIP, regex engine and custom function.")
claim("C07", "proved", "C07_not_matched C07_target_fails C07_matched C07_no_target", "For rules, policies and policy sets; the final world shows nothing else is evaluated.")
claim("C08", "proved", "C08_target_and_or_and C08_target_fails_iff", "")
claim("C09", "partial", "C09_partial C09_error_partial C09_entry_violated C09_section_violated",
      "The code violates the property: a failing match element is never absorbed. Proved: agreement with the tables when no match fails, and no invented errors; witnesses for both deviations.")
claim("C10", "proved", "C10_match_exists C10_match_error C10_no_bag C10_boolean_functions", "Stated for debug logging off; see C54 for debug logging.")
claim("C11", "partial", "C11_partial C11_effect_iff_truthy C11_violated",
      "The code uses Python truthiness: a condition whose value is the boolean attribute value false fires. Proved when the condition value is a native boolean, and the exact truthiness statement without that hypothesis.")
claim("C12", "proved", "C12_permit_has_witness C12_no_permit_rule", "Whole trees of policies and policy sets, any nesting.")
claim("C13", "proved", "C13_designator_exact C13_designated_iff C13_otherwise", "All four categories, no PIP; with a PIP see C17_subject_values.")
claim("C14", "proved", "C14_present C14_missing_iff C14_not_required C14_selector", "Designators with any PIP, and selectors.")
claim("C15", "proved", "C15_designator C15_selector C15_bag_function", "")
claim("C16", "proved", "C16_one_query_per_subject C16_no_query C16_own_attributes_first C17_subject_values", "")
claim("C17", "partial", "C17_violated C17_partial C17_added_iff C17_subject_values",
      "The code keeps duplicates within one PIP answer (witness). Proved: values already known are never added again, and no duplicates if no single answer contains duplicates.")
claim("C18", "proved", "C18_apply C18_apply_argument_fails", "")
claim("C55", "proved", "C55_selector_values C55_selector_fails", "XPath engine is a parameter.")
claim("C57", "partial", "C57_violated C57_partial",
      "A one-shot iterator returned by the PIP for an empty bag is consumed by the type check; its values are lost. Proved for re-iterable answers.")
claim("C19", "proved", "C19_and C19_and_rejects C19_not", "")
claim("C20", "proved", "C20_equal C20_equal_rejects C20_equal_symm C20_equal_refl C20_match_agrees", "Equality of native values specified independently in Spec/Equality.lean.")
claim("C21", "proved", "C21_one_and_only C21_one_and_only_rejects C21_bag_then_one_and_only", "")
claim("C22", "proved", "C22_member C22_rejects C22_set_like", "")
claim("C23", "proved", "C23_concatenate C23_rejects", "")
claim("C24", "proved", "C24_regexp_match C24_cache_transparent", "The regex engine is a parameter; histories of PDP, expression and function evaluations.")
claim("C25", "proved", "C25_history_independent", "")
claim("C26", "proved", "C26_rules C26_policies", "Rules are required to have an effect, as every rule read from XML has.")
claim("C27", "proved", "C27_rules C27_policies", "All six algorithms, effects may be unset.")
claim("C39", "proved", "C39_same_class C39_other_class C39_equivalence", "")
claim("C54", "partial", "C54_violated C54_partial C54_quiet_functions",
      "With debug logging on, a match function returning an attribute value makes the match fail (witness). Proved when no match function returns attribute values.")
claim("C58", "partial", "C58_violated C58_round_partial",
      "round only accepts native numbers, which policies cannot supply: on every attribute value it fails. Proved: ties-to-even rounding of native floats.")
claim("C59", "proved", "C59_compositional", "")
claim("C28", "partial", "C28_violated C28_violated_permit C28_partial C28_assign C28_responses_share_constants",
      "Responses share the mutable constants: assigning to one changes later decisions (witness). Proved for histories without successful assignments to them.")
claim("C29", "partial", "C29_violated C29_partial", "Every response has status OK, including Indeterminate ones (witness).")
claim("C30", "partial", "C30_violated C30_partial", "No response ever carries an obligation (witness for one that should).")
claim("C34", "proved", "C34_stable", "Any state, any importer; the importer (module loading) is a parameter.")
claim("C35", "proved", "C35_standard C35_implemented C35_loadAllCore C35_uri_string_concatenate",
      "All 212 standard URNs after every history; the finite table is checked by the kernel, the histories by an invariant. uri-string-concatenate is listed but not implemented.")
claim("C36", "proved", "C36_lookup C36_registered_exists C36_standard_protected C36_atomic", "")
claim("C31", "partial", "C31_violated C31_step_partial C31_history_partial",
      "A rejected identifier is nevertheless recorded while the old algorithm stays in force (witness). Proved: which identifier and which algorithm are in force after every history.")
claim("C32", "proved", "C32_rules C32_policies", "")
claim("C33", "proved", "C33_exclusive C33_failed C33_types C33_value", "")
claim("C60", "partial", "C60_violated C60_exceptions C60_step_partial C60_standard C60_history_partial",
      "An identifier without a function is recorded before the lookup fails (witness). Proved: what is in force after every history.")
claim("C37", "proved", "C37_lookup C37_conservative C37_rejects C37_distinct", "")
claim("C38", "proved", "C38_native C38_assign C38_base64_unsettable C38_types", "base64Binary has no native type, so such a value can never be set.")
claim("C40", "partial", "C40_homogeneous C40_atomic C40_rejects C40_adds_partial C40_violated C40_unchecked_calls bag_extend_typedList",
      "Items from a generator are consumed by the type check and not added (C40_violated, universal). The rest is proved; insert and item assignment, outside the property, are shown to be unchecked.")
claim("C41", "partial", "C41_violated C41_contains C41_partial", "An iterable with a repeated item puts it in twice (witness). Proved for iterables without repetition; containment for all.")
claim("C42", "partial", "C42_lookup C42_vetted C42_violated C42_get_partial", "get never returns a given default (C42_violated, universal). The rest is proved.")
claim("C43", "partial", "C43_violated C43_update_error_violated C43_keys_partial C43_set", "setdefault adds unknown keys; update with an unknown key raises TypeError (both shown). The rest is proved.")
claim("C44","proved","C44_policy C44_rules C44_rejects C44_description","The grammar is in Spec/Reader.lean; reading succeeds exactly on it, for every element tree and every registry of functions, classes and data type readers.")
claim("C45","partial","C45_standard_library C45_lxml_partial C45_violated C45_violated_defaults","Holds for every insertion with the standard library's parser. With lxml it is violated in AttributeValue, Description, XPathVersion, references and PolicyDefaults (witnesses); proved for every insertion elsewhere.")
claim("C46","proved","C46_read C46_load C46_standard_readers C46_local","For every tree, fetched documents included. Data type readers added by users must not look at namespaces themselves (stated as a hypothesis; the package's own satisfy it).")
claim("C47","partial","C47_partial C47_exact C47_violated","Violated: only DataTypes with native type str and a non-empty text can be read; exact characterisation proved.")

claim("C48","proved","C48_local C48_url C48_unresolved C48_complete C48_new_finder","Both finders, all documents and finder states, any recursion limit. Finder states are coherent: a new finder is, and reading keeps it. Reading is also shown to succeed on every well-formed document whose references are registered.")
claim("C49","proved","C49_first_wins C49_atomic C49_reading C49_load_once","Histories of registrations by both methods, and of reading documents, failing ones included.")
claim("C50","proved","C50_cycle","Termination is by Python's recursion limit, which the model has as a parameter; proved for every limit. Cycles are described by sets of URLs and identifiers closed under references; documents may change between fetches.")
claim("C53","partial","C53_partial C53_no_base C53_empty C53_violated","Violated for references starting with file://.//, which name an absolute file whatever the base path. All other references are proved.")
claim("C56","proved","C56_step C56_history","")

claim("C51","partial","C51_back C51_partial C51_violated_category C51_violated_values C51_violated_getchildren","Violated: subject categories, attributes without values and values that are not strings do not survive; nothing with attributes is read with the standard library of Python 3.9 and later. What comes back is characterised exactly for all requests (C51_back), and so are the requests that survive (C51_partial).")
claim("C52","partial","C52_back C52_partial C52_violated","Violated: results with a resource id cannot be written. What comes back is characterised exactly for all responses.")
claim("C61","proved","C61_request","Needs an ElementTree implementation with getchildren; without it see C51_violated_getchildren.")
claim("C62","proved","C62_response C62_status","")

claim("C63","partial","C63_namespaces C63_standard_library C63_lxml_partial C63_violated_value C63_violated_empty","Violated with lxml: a comment within a value cuts the value off, and a comment makes an Attribute without values acceptable. The rest is proved for every document.")

claim("C64","proved","C64_function C64_expression C64_target C64_rule C64_pdp","The semantics is Verif.Spec.Semantics.")
claim("C65","partial","C65_bad_finder C65_unparsable C65_root C65_agree C65_kind C65_default_finder C65_violated_object C65_violated_policyset","Violated: PDP.fromPolicySource without a finder fails for file objects and elements (NameError), PolicySet.fromSource fails for every document (TypeError). The rest is proved.")
claim("C66","proved","C66_end_to_end loaded_complete","")
claim("C67","partial","C67_namespaces C67_comments C67_lxml_partial","Proved for namespaces and for the standard library's parser; with lxml comments inside texts that are read do matter (C45_violated, C63_violated_value).")
claim("C68","proved","C68_relevant C68_unnamed C68_grouping","C68_grouping also shows that SubjectCategory is ignored by designators.")
claim("C69","proved","C69_labels","")
claim("C70","partial","C70_deny_rules C70_permit_rules C70_violated_permit_set","Proved for Deny rules in any tree and for Permit rules in one policy. Violated for Permit rules below a deny-overrides policy set: a failing Permit rule turns Permit into Deny (policy deny-overrides counts Indeterminate as Deny).")

claim("C71","partial","C71_select C71_evaluate C71_match C71_relative C71_lxml C71_violated_root C71_violated_duplicates C71_violated_prefix C71_violated_text C71_violated_blank C71_violated_position C71_violated_lxml_value","Paths of /, //, . and .. steps with names, wildcards and all predicates ElementTree knows: exactly the named elements, counted from the root element; once each if // occurs at most once, in document order if // is only in the last step. Violated: an absolute path that names the root element finds nothing; with // twice elements are selected twice; prefixes are refused with SyntaxError, text() and @attribute steps with KeyError; a blank, as in a union of paths, makes the path find nothing; positions after another predicate or a wildcard count siblings with the same tag; a selector of a non-string data type, or one that finds an element without text, raises TypeError (last part of C71_evaluate). With lxml the XPath engine is a parameter: one value per node it finds (C71_lxml), but one per character of a string result.")
claim("C72","partial","C72_named_partial C72_resolves C72_unsupported C72_violated C72_violated_letters","Violated: identifiers that are not in the standard are taken, for instance String-equal, url-string-equal, or further parts between colons after the namespace (C72_violated, C72_resolves). Proved for every string: a function that is returned is the one the last part of the identifier names. The first letter may even be one outside ASCII whose capital is the right letter (C72_violated_letters).")
claim("C73","proved","C73_interleaved C73_schedule_independent C73_finishes C73_afterwards C73_uninterrupted","Steps are single reads and writes of shared entries; PIPs are stateless (a PIP call is one step).")
claim("C74","partial","C74_lookups C74_standard C74_registered_partial C74_agree_partial C74_finishes C74_uninterrupted C74_violated","Violated: for an identifier that is not in the standard but starts with its namespace, a lookup under way overwrites a registration that has already returned with 'not implemented' (C74_violated). Proved outside these namespaces and when nobody looked the identifier up before the registration returned, with any number of registrations of it; once they have all ended all later lookups agree (C74_agree_partial). Deletions in parallel are not modelled.")
claim("C75","partial","C75_names_differ C75_copy C75_deepcopy_response_partial C75_deepcopy_response_reads C75_deepcopy_request C75_pickle_request C75_pickle_response C75_policy_violated C75_attribute_violated C75_silent_violated","Holds for copy.copy of requests and responses. Violated otherwise, and exactly described: deep copies of responses lose the contents of every status and fail with an obligation; deep copies of requests fail as soon as there is an attribute and lose subject categories; pickles of requests fail with any subject, resource or attribute, pickles of responses with any result; policies and their parts cannot be copied at all; matches and attribute values copy to empty objects without an error. Python's copy and pickle protocols are modelled by their documented steps.")
claim("C76","partial","C76_reads_partial C76_strip C76_unambiguous C76_succeeds C76_depends C76_violated_registry C76_violated_text C76_violated_attribute C76_violated_tail C76_violated_no_namespace C76_violated_prefixes C76_lxml_succeeds C76_lxml_partial C76_lxml_violated_fails C76_lxml_violated_prefix C76_lxml_violated_namespace","Proved for trees whose elements have namespaces, whose texts and attribute values need no escapes and that have text after a child only after the last one, and for registries with distinct prefixes for the tree's namespaces. Violated otherwise: nothing is escaped, so different trees print the same; text between children is lost; elements without namespace give a document that is not XML; two namespaces under one prefix (makeEtreeElement allows this) change namespaces. It succeeds exactly if there are prefixes ns0 to ns255 left for the new namespaces (C76_succeeds); if it fails the prefixes it added stay in the registry (C76_violated_registry). With lxml the same holds for documents in which prefixes and namespaces correspond one to one throughout (a default namespace is printed with the prefix None); it succeeds exactly if there are no comments and all names are in declared namespaces (C76_lxml_succeeds). Violated with lxml: comments, elements without namespace and xml:lang make it fail; a second prefix for a namespace is not declared; a prefix that is declared again changes namespaces.")
claim("C77","partial","C77_rewind C77_nested_partial C77_print C77_violated_lost C77_violated_overlap","Exactly what happens (C77_rewind): deleting a reader sets the registry back to what it was when that reader was created. So the property holds if readers are deleted in the reverse order of their creation and nothing is registered meanwhile (C77_nested_partial); it is violated for registrations made while a reader exists (lost) and for readers that overlap otherwise (an entry for the empty namespace stays). Without registrations documents all of whose elements have namespaces are printed the same throughout (C77_print).")
claim("C78","proved","C78_spellings C78_nested C78_errors C78_type C78_bare","Import machinery, attribute lookup and issubclass are parameters (PyWorld).")
claim("C79","partial","C79_violated C79_partial C79_history C79_result","Violated: the backup of sys.path is the same list, so a directory that is given stays on the search path for ever, once for each call (C79_history says exactly what the path is). Holds for calls without a directory (C79_partial); what is called is right (C79_result).")
claim("C80","partial","C80_registered C80_inferred C80_package C80_violated C80_violated_missing","Proved: registered readers, and the package's classes that have a reader. Violated: types of the same name share a reader (Subject of targets and of requests); EnvironmentMatch, EnvironmentAttributeDesignator, variables and obligations have none.")
claim("C81","partial","C81_vocabulary C81_assign C81_equal C81_unknown C81_true C81_violated C81_violated_readonly","Violated: operands of other types raise UnboundLocalError; the predefined effects can be assigned to like any other.")
claim("C82","partial","C82_last C82_determined C82_suits C82_refused C82_new_partial C82_violated_description C82_violated_element","Values are abstract (the classes they are instances of). Violated: the description of a new rule, and the XML element of new targets, matches and obligations, cannot be read (AttributeError). Identifiers that fail to be looked up are stored although an exception is raised (C31, C60).")
claim("C83","partial","C83_created C83_accepted C83_refused C83_violated_resource C83_error C83_violated_status C83_violated_argument","Violated: the resource id is lost always; the response of an error has status OK; an error made from anything but a string raises TypeError. The rest is proved.")
claim("C84","partial","C84_exempt C84_data C84_status C84_violated_closed C84_violated_case","Violated: entries of no_proxy with capital letters have no effect (C84_violated_case); the connection stays open if reading fails (C84_violated_closed). The host of a URL is found as in urllib.parse, for URLs scheme://user@host:port/rest. What an opener with the default proxy handling does is outside the model.")
claim("C85","partial","C85_same C85_choice C85_default C85_violated","Holds in every history without assignments to Config.use_lxml after the first module is loaded; such an assignment gives modules loaded later the other library (C85_violated).")
claim("C86","proved","C86_queries C86_settled_rules C86_settled_policies","The queries are a sublist of one per designator and subject in document order; adding anything after a settled decision leaves decision, log and cache as they are. Which queries one designator makes: C16.")
claim("C87","partial","C87_inline C87_split_first C87_split_overrides_partial C87_split_never_grants C87_violated C87_groups_partial C87_groups_never_grants C87_groups_violated","Nested policy sets: proved for all algorithms, and so is splitting first-applicable policies. Splitting deny-overrides and permit-overrides policies is proved if no rule is Indeterminate; with failing rules the decision stays or becomes Deny (C87_split_never_grants), and it does turn Permit and Indeterminate into Deny (C87_violated).")
claim("C88","partial","C88_functional C88_respaced C88_request_general C88_request C88_response C88_conversation C88_registry C88_violated_space C88_violated_injection C88_violated_granted","With the standard library's ElementTree. Proved for requests in which nothing needs escapes: what arrives is the request with white space around values removed (exactly the request if there is none; without resource content, or up to white space in it), for responses without exception, and for whole conversations. Whatever the library does leaves the registry of prefixes as needed. Violated: white space around values is lost, and a value that contains markup can make a request with further attributes arrive (C88_violated_injection), so that a request denied locally is permitted when sent (C88_violated_granted). Not proved for lxml.")
claim("C89","partial","C89_select C89_layout C89_conversation C89_arrives C89_means C89_violated_predicate C89_violated_inner","With the standard library's ElementTree. Proved if all paths of the policy look at texts of elements without children only; for conversations, too. C89_means gives the meaning of selectors on the element in terms of the paths' own semantics. Violated without the condition: a path that compares or selects the text of an element with children depends on the white space in it.")
claim("C90","partial","C90_values C90_same C90_replace C90_policy C90_answer C90_written C90_violated_namespace C90_violated_two_actions C90_violated_no_action C90_violated_empty","With the standard library's ElementTree. Proved for request documents in which parts, attributes and values are in the context namespace and all values have text, for designators whose texts can be quoted and whose types have classes, without a context handler if they ask for the subject, and with exactly one action or environment if they ask for it; all requests that the package writes itself are such documents. Violated otherwise: attributes of other namespaces are seen by designators only, of several actions designators see the last one and paths all, without an action designators fail and paths find nothing, and values without text are errors for selectors only.")
claim("C91","proved","C91_response C91_never_grants C91_policy C91_undisturbed C91_unreliable C91_recovers C91_can_deny C91_silence_may_grant C91_context_error","Evaluation is modelled once more with points at which a schedule may have exceptions raised (Model/Faults); C91_undisturbed proves that nothing else differs. Failing means raising: a context handler that fails by answering that there is no value can grant (C91_silence_may_grant). For NotApplicable the exceptions raised at these points must not be XacmlContextErrors (C91_context_error shows why); what the context handler, XPath engine and compiler raise is arbitrary. Failures can turn Permit into Deny in policy sets (C91_can_deny).")
claim("C92","partial","C92_alike C92_order_partial C92_handler_partial C92_violated_subjects","Proved for requests without a context handler, and with one if the subjects stay in their order (their attributes and values may be reordered). Violated with a context handler if subjects are reordered: its values are weeded out against the values of the subjects before only, so a value may be in the bag once or twice depending on the order of the subjects, and one-and-only then fails or not. Custom functions in conditions must not look at the order of bags; what XPath finds must be the same up to order.")
claim("C93","proved","C93_target C93_policy","")
claim("C94","proved","C94_names C94_must_differ","Attribute selectors see the document, so what XPath finds is assumed to be the same. C94_must_differ shows that the renaming must be one-to-one.")
claim("C95","proved","C95_registries C95_policy C95_load C95_load_local C95_request C95_decision C95_service C95_types_needed","The data types that designators and selectors of the policy ask for must have been registered (otherwise the policy did not work before; C95_types_needed). Functions that are added must have been unusable before.")
claim("C96","partial","C96_unused_partial C96_first_use C96_violated_override C96_violated_delete","Violated: a function keeps the class that was in force when it was looked up first, for instance by an earlier policy, even if its entry is deleted (C96_violated_override, C96_violated_delete: Indeterminate instead of Permit). C96_first_use says exactly which class is used; C96_unused_partial that the claim holds for functions not looked up before. For equal, match, bag, one-and-only and at-least-one-member-of functions; regular expression functions and string-concatenate look a class up when their module is imported, which is not modelled.")
claim("C97","partial","C97_versions C97_once C97_snapshot_partial C97_pdp_partial C97_violated_mixed C97_violated_kind","Violated: two references that name the same file in different ways, or a policy and a policy set of the same name, are resolved with two versions of it if its identifier or kind changes in between; with either version alone loading fails (C97_violated_mixed, C97_violated_kind). C97_versions says exactly what is fetched twice; C97_snapshot_partial that the claim holds for any edits that keep identifiers and kinds. The versions of different documents may stem from different times.")
claim("C98","partial","C98_registered_partial C98_reads_partial C98_registry C98_written C98_requests C98_finishes C98_uninterrupted C98_violated_reading C98_violated_undeclared C98_violated_fails C98_violated_lasting","Violated: prettyPrint and readers put back the copy of the registry they made at their beginning, and with it undo what other threads have registered since. A response that is written meanwhile gets a prefix that is not declared (C98_violated_reading, C98_violated_undeclared), printing fails (C98_violated_fails), or the registry keeps one prefix for two namespaces (C98_violated_lasting). Proved for every schedule: documents whose namespaces are registered from the start come out right (C98_registered_partial, C98_reads_partial), and so do requests if threads only write requests (C98_written, C98_requests). Standard library variant; a step is one access to the attribute or to a dictionary.")
claim("C99","partial","C99_local C99_namespace C99_parts C99_equal C99_text_partial C99_history C99_equivalence C99_operands C99_violated_text C99_violated_hash C99_form_needed","Equality is proved. Violated: assigning to localPart or namespaceURI changes what a name equals but not the text that is written (C99_violated_text), so C99_text_partial is for names that are not assigned to; names cannot be hashed at all (C99_violated_hash). Texts that are not of the form {namespace}local may be taken for names (C99_form_needed); C99_namespace and C99_local say exactly how any text is taken apart. Standard library variant.")
claim("C100","partial","C100_registering C100_unrelated C100_last C100_afterwards C100_violated_mixed C100_violated_permit","Proved if no class is registered, between begin and end of an evaluation, for a data type that the policy's designators or selectors ask for. Without that it is violated: the classes are looked up anew by each designator and selector, so one evaluation can use both the old and the new registry, give a decision neither gives (C100_violated_mixed), and permit what neither permits (C100_violated_permit).")
claim("C101","proved","C101_rules C101_rules_never_grants C101_policies C101_policies_never_grants C101_separate_needed C101_success_needed","For complete policies and PIPs without state. C101_separate_needed and C101_success_needed show that the conditions in the statement cannot be left out: two restrictions of the same section become alternatives, and failing targets change NotApplicable to Indeterminate, and Indeterminate to Deny in deny-overrides policy sets.")
claim("C102","proved","C102_rules C102_rules_never_grants C102_policies C102_policies_never_grants C102_success_needed","For complete policies and PIPs without state. C102_success_needed: a failing alternative keeps the joint rule from applying although another alternative is true, and in permit-overrides policy sets separate policies can permit what a joint one denies.")
claim("C103","partial","C103_exceptions C103_context_partial C103_count C103_violated","C103_exceptions says for all standard functions exactly which exception is raised for which arguments. Violated by -bag, -regexp-match, concatenate, -match and round, which also raise TypeError, ValueError, OverflowError or re.error (C103_violated), so C103_context_partial is for equality, one-and-only, at-least-one-member-of, and, not.")
claim("C104","proved","C104_sees_more C104_more_attributes C104_equality C104_pattern C104_searching_needed C104_deny_set_needed C104_present_needed","For Deny, deny-overrides policy sets are excluded: they answer Deny when an attribute is missing (C104_deny_set_needed). C104_sees_more also covers context handlers and selectors. The other _needed theorems show that not, one-and-only, rules of the other effect and missing required attributes really make a difference.")
claim("C105","proved","C105_values C105_unmentioned C105_alike C105_must_differ C105_must_compare","C105_must_differ and C105_must_compare show that the replacement must be one-to-one and that regexp-match and concatenate must be left out. Policies need not be complete, and the context handler may have a memory.")
claim("C106","partial","C106_violated C106_algorithm C106_policy_partial C106_local_partial C106_loading_partial C106_flawless_partial C106_standard_partial","Violated: adding Obligations, combiner parameters, a variable definition, a rule with a misspelt effect or PolicyDefaults with just a comment to any readable policy raises NotImplementedError, ImportError or AttributeError, an unknown combining algorithm TypeError. Proved: the exception is an XMLParseError or some element of the document (or of one fetched) has one of thirteen listed flaws that accounts for it; without flaws a document is read or an XMLParseError is raised; with the package's own registries nine exceptions are possible.")
claim("C107","partial","C107_violated C107_violated_decision C107_request_partial C107_response_partial C107_kinds_partial","Violated: an attribute without identifier or DataType, or with a value of an unknown DataType, added to any readable request raises TypeError; a decision that is none of the four AttributeError. Proved: the exception is an XMLParseError or one of the listed flaws of an Attribute or Decision element accounts for it, so besides it only TypeError and AttributeError are possible.")
claim("C108","partial","C108_rule C108_policy C108_partial C108_twice C108_violated","Proved without restriction for rules, policies and first-applicable policy sets; for deny-overrides and permit-overrides policy sets if their members are not Indeterminate. Violated otherwise: a permit-overrides set with an Indeterminate member is Indeterminate, its mirror image denies (as XACML 2.0 appendix C prescribes).")
claim("C109","proved","C109_repeating","For all policies related by any sequence of such changes; rules that are moved have an effect, as all rules read from documents have.")
claim("C110","partial","C110_partial C110_never_grants C110_violated","Proved if the conditions of the rules whose targets are narrowed can be evaluated for the request, in particular for all rules without a condition. Otherwise false: a rule that was Indeterminate no longer applies and a later rule permits (C110_violated).")
claim("C111","partial","C111_partial C111_never_grants C111_violated","Proved if the targets that are widened can be evaluated for the request, or the rule always denies after the change. Otherwise false: a rule that was Indeterminate no longer applies and another rule permits (C111_violated).")
claim("C112","proved","C112_boolean_algebra C112_expression","For all expressions related by any sequence of such steps, and all policies with conditions so related.")
claim("C113","proved","C113_target_as_condition","Rules with a condition besides the target are not covered: there the failing condition of a rule whose target is false would matter.")
claim("C114","proved","C114_target C114_policy C114_elements_matter","C114_elements_matter shows that the same match elements are needed: a redundant alternative with a match element that fails makes a Permit Indeterminate.")
claim("C115","proved","C115_default C115_decides","C115_default for one policy or policy set, C115_decides for trees of any depth. For context handlers that answer equal questions equally.")
claim("C116","proved","C116_facts C116_handler C116_repetition_matters","Custom functions must not look at the order of bags, and XPath must find the same in both requests where the policy has selectors. C116_repetition_matters shows that how often something is said counts.")
claim("C117","proved","C117_dead C117_always","For complete policies and context handlers that answer the same question alike.")
claim("C118","proved","C118_excerpt C118_select C118_failing_counts","For complete policies and context handlers that answer the same question alike. C118_failing_counts is the case of a target that cannot be evaluated.")
