{"id": "C01", "title": "Rule deny-overrides implements the XACML 2.0 C.1 table", "statement": "Evaluating a Policy's rules under rule-combining-algorithm:deny-overrides gives Deny if some rule decides Deny; otherwise Indeterminate if some rule whose Effect is Deny is Indeterminate; otherwise Permit if some rule decides Permit; otherwise Indeterminate if some rule is Indeterminate; otherwise NotApplicable. No rule after the first Deny is evaluated.", "quantifier": "every finite list of rules, every assignment of outcomes to them, every request and every PIP history", "why_tests_cant": "the table ranges over rule lists of any length and all interleavings of four outcomes", "anchors": ["ndg/xacml/core/rule_combining_alg.py:DenyOverridesRuleCombiningAlg.evaluate", "ndg/xacml/core/policy.py:Policy.evaluateCombiningAlgorithm"]}
{"id": "C02", "title": "Rule permit-overrides implements the XACML 2.0 C.3 table", "statement": "Under rule-combining-algorithm:permit-overrides the result is Permit if some rule decides Permit; otherwise Indeterminate if some Permit-effect rule is Indeterminate; otherwise Deny if some rule decides Deny; otherwise Indeterminate if some rule is Indeterminate; otherwise NotApplicable. No rule after the first Permit is evaluated.", "quantifier": "every finite list of rules, outcome assignment, request and PIP history", "why_tests_cant": "as C01", "anchors": ["ndg/xacml/core/rule_combining_alg.py:PermitOverridesRuleCombiningAlg.evaluate"]}
{"id": "C03", "title": "First-applicable returns the first decision that is not NotApplicable", "statement": "For rules and for policies, first-applicable returns the decision of the earliest child that is Permit, Deny or Indeterminate, NotApplicable if there is none, and evaluates no child after the deciding one.", "quantifier": "every finite list of rules or policies, every outcome assignment", "why_tests_cant": "position of the deciding child is unbounded", "anchors": ["ndg/xacml/core/rule_combining_alg.py:FirstApplicableRuleCombiningAlg.evaluate", "ndg/xacml/core/policy_combining_alg.py:FirstApplicablePolicyCombiningAlg.evaluate"]}
{"id": "C04", "title": "Policy deny-overrides treats an Indeterminate child as Deny and never returns Indeterminate", "statement": "Under policy-combining-algorithm:deny-overrides the result is Deny if some child policy decides Deny or Indeterminate; otherwise Permit if some child decides Permit; otherwise NotApplicable; no child after the deciding one is evaluated.", "quantifier": "every finite list of child policies and policy sets, every outcome assignment", "why_tests_cant": "fail-safe behaviour must hold for every mix of outcomes", "anchors": ["ndg/xacml/core/policy_combining_alg.py:DenyOverridesPolicyCombiningAlg.evaluate"]}
{"id": "C05", "title": "Policy permit-overrides implements the XACML 2.0 C.4 table", "statement": "Under policy-combining-algorithm:permit-overrides the result is Permit if some child decides Permit; otherwise Deny if some child decides Deny; otherwise Indeterminate if some child is Indeterminate; otherwise NotApplicable; no child after the first Permit is evaluated.", "quantifier": "every finite list of children, every outcome assignment", "why_tests_cant": "as C04", "anchors": ["ndg/xacml/core/policy_combining_alg.py:PermitOverridesPolicyCombiningAlg.evaluate"]}
{"id": "C06", "title": "Evaluation is total: PDP.evaluate returns exactly one result with one of the four decisions", "statement": "For a PDP with a policy set, evaluate never raises whatever the request object, policy content, function behaviour or PIP behaviour (for any ordinary Exception raised inside), and the response holds exactly one result whose decision is Permit, Deny, NotApplicable or Indeterminate. With no policy set it raises AttributeError.", "quantifier": "every policy tree (any depth and width), every context object including non-Requests, every PIP and function behaviour", "why_tests_cant": "errors can arise at any point of any nesting", "anchors": ["ndg/xacml/core/context/pdp.py:PDP.evaluate", "ndg/xacml/core/policybase.py:PolicyBase.evaluateResponse", "ndg/xacml/core/rule.py:Rule.evaluate"]}
{"id": "C07", "title": "Applicability gates evaluation", "statement": "If a Rule, Policy or PolicySet target does not match, its decision is NotApplicable and neither its condition nor any of its children is evaluated (no PIP query beyond those of the target); if evaluating the target fails, the decision is Indeterminate; if there is no target, the element applies to every request.", "quantifier": "every rule, policy and policy set, every request and PIP history", "why_tests_cant": "must hold for arbitrary nesting and side-effecting PIPs", "anchors": ["ndg/xacml/core/policybase.py:PolicyBase.evaluate", "ndg/xacml/core/rule.py:Rule.evaluate"]}
{"id": "C08", "title": "Target matching is the AND of ORs of ANDs", "statement": "When no match element fails, a target matches exactly when for each of its four sections (subjects, resources, actions, environments) the section is empty or has some entry all of whose match elements are true.", "quantifier": "every target of any size, every request", "why_tests_cant": "unbounded nesting of sections, entries and matches", "anchors": ["ndg/xacml/core/target.py:Target.match", "ndg/xacml/core/target.py:Target._matchChild"]}
{"id": "C09", "title": "Errors in targets follow the XACML 2.0 section 7.6 tables", "statement": "Per XACML tables: an entry with a False match is No-match even if a sibling match fails; a section with a matching entry matches even if another entry fails; only otherwise is it Indeterminate. The code instead makes the whole target fail as soon as any match element fails.", "quantifier": "every target and every assignment of True/False/error to match elements", "why_tests_cant": "combination of errors and sibling values is unbounded", "anchors": ["ndg/xacml/core/target.py:Target.match", "ndg/xacml/core/match.py:MatchBase.evaluate"]}
{"id": "C10", "title": "A match element is true iff its function holds of some value of the designated bag", "statement": "A SubjectMatch/ResourceMatch/ActionMatch/EnvironmentMatch is true iff its match function returns true for (literal value, v) for some v in the bag of its designator (or selector); every value is checked, so an error for any value makes the match fail; argument order is literal first.", "quantifier": "every match element, bag size and function", "why_tests_cant": "bags are unbounded and an error may hide behind an earlier success", "anchors": ["ndg/xacml/core/match.py:MatchBase.evaluate"]}
{"id": "C11", "title": "A rule yields its Effect exactly when its target matches and its condition is true", "statement": "A Rule decides its Effect iff its target (if any) matches and its condition (if any) evaluates to true; NotApplicable if the target does not match or the condition is false; Indeterminate if either fails. The condition's boolean value is what counts.", "quantifier": "every rule, condition expression and request", "why_tests_cant": "conditions are arbitrary expression trees", "anchors": ["ndg/xacml/core/rule.py:Rule.evaluate", "ndg/xacml/core/condition.py:Condition.evaluate"]}
{"id": "C12", "title": "No Permit without a Permit rule that fired", "statement": "If the PDP answers Permit then some Rule with Effect Permit in the policy tree decided Permit for this request and every target on the path from the root to it matched. In particular a tree with no Permit rule can never answer Permit.", "quantifier": "every policy tree of any depth, every mix of combining algorithms, every request and PIP history", "why_tests_cant": "safety over all trees", "anchors": ["ndg/xacml/core/policybase.py:PolicyBase.evaluate", "ndg/xacml/core/rule_combining_alg.py", "ndg/xacml/core/policy_combining_alg.py"]}
{"id": "C13", "title": "Attribute designators return exactly the matching values, in document order", "statement": "Without a PIP, a Subject/Resource/Action/Environment attribute designator returns the bag of all values v such that v's DataType equals the designator's and v belongs to an attribute of that category with the same AttributeId and DataType and, when the designator has an Issuer, the same Issuer; in document order, with multiplicity, and nothing else.", "quantifier": "every request (any number of subjects, attributes, values) and every designator", "why_tests_cant": "completeness ranges over all request contents", "anchors": ["ndg/xacml/core/attributedesignator.py"]}
{"id": "C14", "title": "MustBePresent turns an empty bag into an error, and nothing else does", "statement": "A designator or selector with MustBePresent raises MissingAttributeError iff its bag is empty; without MustBePresent an empty bag is returned.", "quantifier": "every designator/selector and request", "why_tests_cant": "absence must be checked for every request", "anchors": ["ndg/xacml/core/attributedesignator.py", "ndg/xacml/core/attributeselector.py"]}
{"id": "C15", "title": "Bags are homogeneous", "statement": "Every bag produced by evaluating a designator, a selector or a <type>-bag function declares the class registered for its DataType as element type and contains only instances of that class, whatever the PIP returns.", "quantifier": "every expression, request and PIP behaviour", "why_tests_cant": "PIP results are arbitrary objects", "anchors": ["ndg/xacml/core/attributedesignator.py", "ndg/xacml/core/attributeselector.py", "ndg/xacml/core/functions/v1/bag.py"]}
{"id": "C16", "title": "The PIP is queried exactly once per subject, only by subject designators, after that subject's own attributes", "statement": "Evaluating a SubjectAttributeDesignator with a context handler performs one query per subject in the request, in order, up to the first failure; with no subjects none is made; resource, action and environment designators and selectors make none.", "quantifier": "every request, designator and PIP behaviour and history", "why_tests_cant": "number and order of side effects over arbitrary requests", "anchors": ["ndg/xacml/core/attributedesignator.py:SubjectAttributeDesignator.evaluate"]}
{"id": "C17", "title": "PIP values already known are not duplicated", "statement": "Values returned by the PIP that equal a value already in the bag are not added again, so querying the PIP adds no duplicates to the bag.", "quantifier": "every request and PIP answer", "why_tests_cant": "depends on all pairs of values", "anchors": ["ndg/xacml/core/attributedesignator.py:SubjectAttributeDesignator.evaluate"]}
{"id": "C18", "title": "Apply evaluates every argument exactly once, left to right, before the function", "statement": "Apply.evaluate evaluates its argument expressions in order, each exactly once, and then calls the function once on exactly those results; if an argument fails, later arguments and the function are not evaluated and that failure is the result.", "quantifier": "every expression tree and PIP history", "why_tests_cant": "arity and nesting are unbounded", "anchors": ["ndg/xacml/core/apply.py:Apply.evaluate"]}
{"id": "C19", "title": "and / not are the boolean connectives on booleans and reject everything else", "statement": "and() of booleans is true iff all are true (true for none); not(b) is the negation; if any argument is not a native boolean the call fails with XacmlContextTypeError, even if an earlier argument is false. A boolean AttributeValue is such a non-boolean.", "quantifier": "every argument list", "why_tests_cant": "arity unbounded", "anchors": ["ndg/xacml/core/functions/v1/and.py", "ndg/xacml/core/functions/v1/not.py"]}
{"id": "C20", "title": "<type>-equal compares values of the declared type and rejects others", "statement": "<type>-equal returns whether the two attribute values' values are equal when both are instances of the function's type and fails with XacmlContextTypeError otherwise; it is symmetric, and reflexive except for NaN. <type>-match agrees with it on values of the same class.", "quantifier": "every pair of arguments of every type", "why_tests_cant": "all pairs", "anchors": ["ndg/xacml/core/functions/v1/equal.py", "ndg/xacml/core/functions/v1/match.py", "ndg/xacml/core/attributevalue.py:AttributeValue.__eq__"]}
{"id": "C21", "title": "one-and-only inverts bag on singletons and rejects every other bag", "statement": "<type>-one-and-only(b) returns the single element of b if b is a bag of exactly that type with exactly one element, and fails with XacmlContextError otherwise; <type>-bag followed by <type>-one-and-only is the identity.", "quantifier": "every bag and argument", "why_tests_cant": "all sizes", "anchors": ["ndg/xacml/core/functions/v1/one_and_only.py", "ndg/xacml/core/functions/v1/bag.py"]}
{"id": "C22", "title": "<type>-at-least-one-member-of is non-empty intersection by value", "statement": "On two bags declared with exactly the function's type the result is true iff some value occurs in both; it is symmetric, insensitive to order and multiplicity, and monotone in each bag; any other argument fails with XacmlContextTypeError.", "quantifier": "every pair of bags", "why_tests_cant": "all sizes and orders", "anchors": ["ndg/xacml/core/functions/v1/at_least_one_member_of.py"]}
{"id": "C23", "title": "concatenate joins its arguments in order", "statement": "string-concatenate and url-string-concatenate of at least two arguments (first of the result type, the rest strings) return an attribute value of the result type whose value is the arguments' values joined in order; fewer arguments or other types are rejected.", "quantifier": "every argument list", "why_tests_cant": "arity unbounded", "anchors": ["ndg/xacml/core/functions/v2/concatenate.py"]}
{"id": "C24", "title": "The compiled-regex cache is transparent", "statement": "The result of <type>-regexp-match never depends on which patterns were matched before: after any history of evaluations it equals compiling the pattern afresh and matching.", "quantifier": "every history of regexp-match calls by any function of the family", "why_tests_cant": "all histories", "anchors": ["ndg/xacml/core/functions/v1/regexp_match.py:RegexpMatchBase.evaluate"]}
{"id": "C25", "title": "Decisions do not depend on earlier requests", "statement": "If the PIP is stateless (its answer depends only on the query), evaluating a request yields the same decision whatever requests and policies were evaluated before in the process.", "quantifier": "every history of evaluations, every policy tree, every request", "why_tests_cant": "all histories", "anchors": ["ndg/xacml/core/policybase.py:PolicyBase.evaluate", "ndg/xacml/core/functions/v1/regexp_match.py"]}
{"id": "C26", "title": "Overrides algorithms are independent of child order", "statement": "With a stateless PIP, permuting the rules of a deny-overrides or permit-overrides policy, or the children of a deny-overrides or permit-overrides policy set, does not change the decision.", "quantifier": "every permutation of every list", "why_tests_cant": "factorially many orders", "anchors": ["ndg/xacml/core/rule_combining_alg.py", "ndg/xacml/core/policy_combining_alg.py"]}
{"id": "C27", "title": "Inapplicable children are irrelevant", "statement": "With a stateless PIP, inserting or removing at any position a rule or policy that is NotApplicable does not change the decision under any of the six algorithms.", "quantifier": "every list and position", "why_tests_cant": "unbounded", "anchors": ["ndg/xacml/core/rule_combining_alg.py", "ndg/xacml/core/policy_combining_alg.py"]}
{"id": "C28", "title": "The four Decision constants can always be trusted", "statement": "The decision objects inside earlier responses are independent: changing the value of a decision in one response does not affect later evaluations.", "quantifier": "every history of evaluations interleaved with caller assignments to response decisions", "why_tests_cant": "histories", "anchors": ["ndg/xacml/core/context/result.py:Decision", "ndg/xacml/core/rule.py:Rule.evaluate", "ndg/xacml/core/policybase.py:PolicyBase.evaluateResponse"]}
{"id": "C29", "title": "An Indeterminate response carries an error status", "statement": "A response whose decision is Indeterminate carries a status code other than OK that describes the error.", "quantifier": "every evaluation", "why_tests_cant": "every failure path", "anchors": ["ndg/xacml/core/policybase.py:PolicyBase.evaluateResponse", "ndg/xacml/core/context/result.py:Result.createInitialised"]}
{"id": "C30", "title": "Obligations whose FulfillOn equals the decision are returned", "statement": "The result returned by PDP.evaluate carries the obligations of the policies that contributed to the decision with matching FulfillOn.", "quantifier": "every policy tree and request", "why_tests_cant": "all trees", "anchors": ["ndg/xacml/core/policybase.py:PolicyBase.evaluateResponse", "ndg/xacml/core/obligation.py"]}
{"id": "C31", "title": "Setting a combining algorithm id is all-or-nothing", "statement": "Assigning ruleCombiningAlgId/policyCombiningAlgId either installs the algorithm with that identifier or fails leaving the policy as it was; after any history of assignments the algorithm in force is the one named by the identifier.", "quantifier": "every history of assignments of arbitrary strings", "why_tests_cant": "histories", "anchors": ["ndg/xacml/core/policy.py:Policy._setRuleCombiningAlgId", "ndg/xacml/core/policyset.py:PolicySet._setPolicyCombiningAlgId"]}
{"id": "C32", "title": "Exactly the three documented combining algorithms of each kind are accepted", "statement": "Assigning an identifier succeeds iff it is one of deny-overrides, permit-overrides, first-applicable of the proper family (rule 1.0 / policy 1.0), and then evaluation follows that algorithm; any other string fails.", "quantifier": "every string", "why_tests_cant": "infinitely many strings", "anchors": ["ndg/xacml/core/rule_combining_alg.py:RuleCombiningAlgClassFactory", "ndg/xacml/core/policy_combining_alg.py:PolicyCombiningAlgClassFactory"]}
{"id": "C33", "title": "A match element never has both a designator and a selector", "statement": "After any sequence of assignments to attributeDesignator and attributeSelector at most one of them is set, namely the one assigned last successfully; failed assignments change nothing.", "quantifier": "every history of setter calls", "why_tests_cant": "histories", "anchors": ["ndg/xacml/core/match.py:MatchBase"]}
{"id": "C34", "title": "Function lookup is stable", "statement": "Looking up a function URN in the function map gives the same outcome at every later time regardless of which other URNs were looked up in between and in which order; lookups only ever add cache entries.", "quantifier": "every history of lookups", "why_tests_cant": "histories", "anchors": ["ndg/xacml/core/functions/__init__.py:FunctionMap"]}
{"id": "C35", "title": "Standard functions resolve to their implementation or to 'not implemented'", "statement": "For every URN in the XACML standard list, lookup yields the implementing function class of the right family and type, or the marker for unimplemented standard functions; which ones are implemented is exactly the documented set.", "quantifier": "every standard URN and every lookup history", "why_tests_cant": "whole table under all histories", "anchors": ["ndg/xacml/core/functions/__init__.py:FunctionMap.loadFunction", "ndg/xacml/core/functions/__init__.py:FunctionClassFactoryBase.loadFunction"]}
{"id": "C36", "title": "Custom functions cannot replace standard ones", "statement": "load_custom_function with a standard URN always fails and changes nothing; after any history of load_custom_function and lookups, every standard URN still resolves as in C35 and every successfully registered custom URN resolves to the function last registered.", "quantifier": "every history of registrations and lookups", "why_tests_cant": "histories", "anchors": ["ndg/xacml/core/functions/__init__.py:FunctionMap.load_custom_function"]}
{"id": "C37", "title": "Registering attribute value classes is conservative", "statement": "addClass without overwrite never changes the class of an identifier already registered; with overwrite it changes only that identifier; invalid classes or identifiers are rejected without effect.", "quantifier": "every history of addClass calls", "why_tests_cant": "histories", "anchors": ["ndg/xacml/core/attributevalue.py:AttributeValueClassFactory.addClass"]}
{"id": "C38", "title": "An attribute value always holds a value of its native type", "statement": "After any history of assignments, an attribute value's value is unset or an instance of its class's native type; failed assignments leave it unchanged.", "quantifier": "every history of assignments for every one of the classes", "why_tests_cant": "histories", "anchors": ["ndg/xacml/core/attributevalue.py:AttributeValue._set_value"]}
{"id": "C39", "title": "Attribute value equality is an equivalence within a class and an error across classes", "statement": "v == w for attribute values of one class compares their values: reflexive (except NaN), symmetric, transitive; comparing values of different classes raises TypeError.", "quantifier": "every triple of attribute values", "why_tests_cant": "all triples", "anchors": ["ndg/xacml/core/attributevalue.py:AttributeValue.__eq__"]}
{"id": "C40", "title": "TypedList stays homogeneous and its failed updates are atomic", "statement": "After any history of append, extend and += on a TypedList built empty, every element is an instance of the element type; an update containing a wrong item raises TypeError and leaves the list unchanged; a correct update adds exactly the given items in order.", "quantifier": "every history, every iterable", "why_tests_cant": "histories", "anchors": ["ndg/xacml/utils/__init__.py:TypedList"]}
{"id": "C41", "title": "UniqList never holds duplicates", "statement": "After any history of append, extend and += a UniqList contains no two equal items and contains every item offered, in order of first offer.", "quantifier": "every history", "why_tests_cant": "histories", "anchors": ["ndg/xacml/utils/__init__.py:UniqList"]}
{"id": "C42", "title": "VettedDict only ever holds vetted pairs and otherwise behaves as a dict", "statement": "After any history of set, delete and update every stored pair passed both filters; a lookup returns the last vetted value stored under the key and not deleted since; get with a default returns the default for a missing key.", "quantifier": "every history and every pair of filters", "why_tests_cant": "histories", "anchors": ["ndg/xacml/utils/__init__.py:VettedDict"]}
{"id": "C43", "title": "RestrictedKeyNamesDict only ever holds the key names given at construction", "statement": "After any history of item assignment, update, setdefault and deletion the key set is contained in the initial one; an unknown key raises KeyError and leaves the dict unchanged.", "quantifier": "every history", "why_tests_cant": "histories", "anchors": ["ndg/xacml/utils/__init__.py:RestrictedKeyNamesDict"]}
{"id": "C44", "title": "Reading a policy keeps every rule, in order, and rejects what it does not understand", "statement": "Parsing a Policy document succeeds only if every child element is known and supported, all required attributes are present and rule ids are distinct; then the rules of the policy are exactly those of the Rule elements in document order.", "quantifier": "every XML element tree", "why_tests_cant": "all documents", "anchors": ["ndg/xacml/parsers/etree/policyreader.py", "ndg/xacml/parsers/etree/rulereader.py"]}
{"id": "C45", "title": "Comments and processing instructions are ignored by the policy reader", "statement": "Inserting or removing comments and processing instructions anywhere in a policy document does not change the policy read.", "quantifier": "every document and insertion position", "why_tests_cant": "all documents", "anchors": ["ndg/xacml/parsers/etree/__init__.py:getElementChildren", "ndg/xacml/parsers/etree"]}
{"id": "C46", "title": "Namespace prefixes do not matter", "statement": "Two policy documents that differ only in namespace prefixes/URIs bound to elements are read to the same policy.", "quantifier": "every document", "why_tests_cant": "all documents", "anchors": ["ndg/xacml/parsers/etree/__init__.py:QName.getLocalPart"]}
{"id": "C47", "title": "Attribute values of every supported DataType can be read from policies", "statement": "An AttributeValue element with a registered DataType and valid text is read to an attribute value of that type.", "quantifier": "every DataType and text", "why_tests_cant": "all texts", "anchors": ["ndg/xacml/parsers/etree/attributevaluereader.py"]}
{"id": "C48", "title": "Policy references resolve to the policy with that id", "statement": "When reading a PolicySet succeeds, each PolicyIdReference/PolicySetIdReference child has been replaced by a policy/policy set whose identifier equals the reference text; a reference that cannot be resolved makes reading fail.", "quantifier": "every document and every finder state", "why_tests_cant": "all documents and reading orders", "anchors": ["ndg/xacml/finder", "ndg/xacml/parsers/etree/policysetreader.py"]}
{"id": "C49", "title": "Policy identifiers stay unique in a finder", "statement": "After any history of registrations the finder maps each identifier to the policy first registered under it; registering a second one under the same identifier fails and changes nothing.", "quantifier": "every history", "why_tests_cant": "histories", "anchors": ["ndg/xacml/finder/policyfinderbase.py"]}
{"id": "C50", "title": "Reading terminates on cyclic policy references", "statement": "Reading a PolicySet whose references form a cycle terminates with an error.", "quantifier": "every set of documents reachable by URL", "why_tests_cant": "infinite unfolding", "anchors": ["ndg/xacml/finder/urlpolicyfinder.py", "ndg/xacml/parsers/etree/policysetreader.py"]}
{"id": "C51", "title": "Request contexts survive a write/read round trip", "statement": "Writing a Request to XML and reading it back gives the same subjects, resources, action and environment with the same attributes and values.", "quantifier": "every request", "why_tests_cant": "all requests", "anchors": ["ndg/xacml/parsers/etree/context.py"]}
{"id": "C52", "title": "Response contexts survive a write/read round trip", "statement": "Writing a Response to XML and reading it back gives the same decisions in the same order.", "quantifier": "every response", "why_tests_cant": "all responses", "anchors": ["ndg/xacml/parsers/etree/context.py"]}
{"id": "C53", "title": "Policy reference URLs are resolved against the base path", "statement": "A reference without scheme or with a relative file: URL resolves to a file URL below/relative to the finder's base path, an absolute path to a file URL for that path, and http, https, ftp and absolute file URLs are used unchanged.", "quantifier": "every reference string and base path", "why_tests_cant": "all strings", "anchors": ["ndg/xacml/finder/urlpolicyfinder.py:UrlPolicyFinder._makeUrlFromReference"]}
{"id": "C54", "title": "The logging level does not influence decisions", "statement": "Evaluating the same policy and request with debug logging on or off gives the same decision.", "quantifier": "every policy and request", "why_tests_cant": "all inputs at every level", "anchors": ["ndg/xacml/core/match.py:MatchBase.evaluate"]}
{"id": "C55", "title": "Selector bags mirror the XPath result", "statement": "An AttributeSelector returns one value per text selected by its path, in order, each of the selector's DataType, and fails if the request has no selector, the DataType is unknown, or some selected text is not of the native type.", "quantifier": "every selection result", "why_tests_cant": "all sizes", "anchors": ["ndg/xacml/core/attributeselector.py"]}
{"id": "C56", "title": "A PDP keeps its policy when loading a new one fails", "statement": "setPolicyFromSource and assignment to policy either install the new policy or raise and leave the previous policy in force.", "quantifier": "every history of assignments and loads", "why_tests_cant": "histories", "anchors": ["ndg/xacml/core/context/pdp.py"]}
{"id": "C57", "title": "No value supplied by the PIP is lost", "statement": "Every value of the requested type that the context handler returns for a subject is in the designator's bag, or equals one that is, whatever kind of iterable the handler answers with.", "quantifier": "every PIP answer, including one-shot iterators", "why_tests_cant": "all iterables and sizes", "anchors": ["ndg/xacml/core/attributedesignator.py:SubjectAttributeDesignator.evaluate", "ndg/xacml/utils/__init__.py:TypedList.extend"]}
{"id": "C58", "title": "round rounds double values", "statement": "The round function applied to a double attribute value returns the nearest integer, ties to even.", "quantifier": "every double value", "why_tests_cant": "all values", "anchors": ["ndg/xacml/core/functions/v1/round.py:Round.evaluate"]}
{"id": "C59", "title": "Policies are compositional", "statement": "With a stateless PIP, replacing a policy or policy set anywhere in a policy tree by one that gives the same decision for a request does not change the response to that request.", "quantifier": "every policy tree, position and pair of sub-policies", "why_tests_cant": "trees of unbounded depth and width", "anchors": ["ndg/xacml/core/policy_combining_alg.py", "ndg/xacml/core/policybase.py"]}
{"id": "C60", "title": "Setting a function identifier is all-or-nothing", "statement": "Assigning matchId on a match element or functionId on an Apply either installs the function registered under that identifier or fails leaving the element as it was; after any history of assignments the function in force is the one the identifier names.", "quantifier": "every function map, loader and history of assignments, including failing ones", "why_tests_cant": "histories of unbounded length with failures at any point", "anchors": ["ndg/xacml/core/match.py:MatchBase.matchId", "ndg/xacml/core/apply.py:Apply.functionId", "ndg/xacml/core/functions/__init__.py:FunctionMap"]}
{"id": "C61", "title": "A request document means what it says", "statement": "Reading a Request element succeeds exactly if it consists of Subject, Resource, Action and Environment elements whose attributes all have an id, a DataType with a registered string class and at least one value; the result has exactly these subjects, resources and attributes in document order, the last Action and Environment, and access-subject as the default category.", "quantifier": "every element tree and every class registry", "why_tests_cant": "all trees", "anchors": ["ndg/xacml/parsers/etree/context.py"]}
{"id": "C62", "title": "A response document means what it says", "statement": "Reading a Response element succeeds exactly if it consists of Result elements consisting of Decision elements with one of the four decision words; results come in document order with their resource id and last decision; a document with any other child, such as Status or Obligations, is rejected.", "quantifier": "every element tree", "why_tests_cant": "all trees", "anchors": ["ndg/xacml/parsers/etree/context.py"]}
{"id": "C63", "title": "Comments and namespaces do not matter in request documents", "statement": "Two request documents that differ only in comments or in the namespaces of their elements are both rejected or give requests with the same subjects, resources, action and environment attributes.", "quantifier": "every element tree and every position of a comment", "why_tests_cant": "all trees and positions", "anchors": ["ndg/xacml/parsers/etree/context.py", "ndg/xacml/utils/etree.py:QName"]}
{"id": "C64", "title": "A policy means what the XACML semantics says", "statement": "For every complete policy or policy set (every combining algorithm and effect set), every request whose context handler answers by the query alone, and after any history of the process, PDP.evaluate returns one result with status ok and the one decision that a big-step semantics without state, exceptions or evaluation order assigns to the policy; functions, expressions, targets and rules likewise return a value exactly when the semantics gives it.", "quantifier": "every policy tree, request, context handler, attribute selector, regular expression engine, logging level and process history", "why_tests_cant": "unbounded policy trees, requests and histories", "anchors": ["ndg/xacml/core/policybase.py:PolicyBase.evaluate", "ndg/xacml/core/rule.py:Rule.evaluate", "ndg/xacml/core/target.py:Target.match", "ndg/xacml/core/match.py", "ndg/xacml/core/apply.py", "ndg/xacml/core/functions", "ndg/xacml/core/context/pdp.py:PDP.evaluate"]}
{"id": "C65", "title": "Policies are loaded only from policy documents, by every entry point alike", "statement": "Loading with an object that is not a policy finder raises TypeError and changes nothing; an unparsable source raises the parser's error and changes nothing; only Policy and PolicySet documents load, giving a policy and a policy set; Policy.fromSource, PolicySet.fromSource, PolicyBase.fromSource and PDP.fromPolicySource agree, for file names, file objects and elements alike.", "quantifier": "every document, finder state, source and PDP", "why_tests_cant": "all documents and finder states", "anchors": ["ndg/xacml/core/policybase.py:PolicyBase.fromSource", "ndg/xacml/core/policy.py:Policy.fromSource", "ndg/xacml/core/policyset.py:PolicySet.fromSource", "ndg/xacml/core/context/pdp.py:PDP.fromPolicySource", "ndg/xacml/finder/defaultfinder.py:getDefaultPolicyFinder"]}
{"id": "C66", "title": "From documents to the decision", "statement": "A PDP created from a policy document answers a request document, after any history, with a response document whose one decision is the one the semantics assigns to the policy described by the policy document, references resolved, and the request described by the request document; anything that is not a request document is rejected.", "quantifier": "every policy document, set of referenced documents, request document, context handler and history", "why_tests_cant": "all documents and histories", "anchors": ["ndg/xacml/core/context/pdp.py", "ndg/xacml/parsers/etree/context.py", "ndg/xacml/parsers/etree/policyreader.py", "ndg/xacml/parsers/etree/policysetreader.py"]}
{"id": "C67", "title": "Namespaces and comments never change a response", "statement": "A service that loads a policy document and answers a request document gives the same response document when the namespaces of the elements of either document, or of documents they refer to, or comments in them, are changed.", "quantifier": "every policy document, request document, set of fetched documents and position of a comment", "why_tests_cant": "all documents and positions", "anchors": ["ndg/xacml/utils/etree.py:QName", "ndg/xacml/parsers/etree", "ndg/xacml/core/context/pdp.py"]}
{"id": "C68", "title": "Decisions depend only on what the policy names", "statement": "Two requests that look the same through every attribute designator and selector of a policy get the same response; in particular attributes that no designator of the policy names can be added, removed or changed, and without a context handler it does not matter how attributes are distributed over subjects or resources or which category a subject has.", "quantifier": "every policy tree, every pair of requests, every environment and process state", "why_tests_cant": "unbounded policies and requests, all pairs of requests", "anchors": ["ndg/xacml/core/attributedesignator.py", "ndg/xacml/core/attributeselector.py", "ndg/xacml/core/policybase.py:PolicyBase.evaluate", "ndg/xacml/core/context/subject.py"]}
{"id": "C69", "title": "Labels never influence decisions", "statement": "Identifiers, versions, descriptions, XPath versions and obligations of rules, policies and policy sets, at any depth, have no influence on the response to any request.", "quantifier": "every pair of policy trees differing only in labels, every request and process state", "why_tests_cant": "unbounded policy trees", "anchors": ["ndg/xacml/core/policybase.py:PolicyBase.evaluate", "ndg/xacml/core/rule.py:Rule.evaluate", "ndg/xacml/core/context/pdp.py:PDP.evaluate"]}
{"id": "C70", "title": "Adding Deny rules never grants, adding Permit rules never revokes", "statement": "Adding rules with effect Deny anywhere in a tree of policies and policy sets leaves the decision for a request as it was or makes it Deny or Indeterminate; adding rules with effect Permit leaves it as it was or makes it Permit or Indeterminate.", "quantifier": "every complete policy tree, every set of added rules and positions, every request, stateless context handler and history", "why_tests_cant": "unbounded policy trees and insertions", "anchors": ["ndg/xacml/core/rule_combining_alg.py", "ndg/xacml/core/policy_combining_alg.py", "ndg/xacml/core/rule.py:Rule.evaluate"]}
{"id": "C71", "title": "Attribute selectors pick the elements their path names", "statement": "With the supplied ElementTree selector, an AttributeSelector whose path consists of /name, /*, //name, //*, /. and /.. steps with predicates (attributes, children, text, positions) yields one value of its data type for each element of the request document that the path names, each once and in document order.", "quantifier": "every request document, every such path of any length with any number of predicates, every data type", "why_tests_cant": "documents and paths of any size; nested // steps, empty elements and non-string types", "anchors": ["ndg/xacml/utils/xpath_selector.py:EtreeXPathSelector.selectText", "ndg/xacml/core/attributeselector.py:AttributeSelector.evaluate"]}
{"id": "C72", "title": "A function identifier gets the function it names or none", "statement": "Looking up a function identifier for which nothing was registered gives a function of the package only if the identifier is one of the standard's identifiers for exactly that function (family and type); all other identifiers are refused or marked as not implemented.", "quantifier": "every string used as function identifier, after every history of lookups, registrations and deletions", "why_tests_cant": "the identifier is cut at colons and hyphens, re-cased and turned into a Python module path, so infinitely many misspelt identifiers reach the loader", "anchors": ["ndg/xacml/core/functions/__init__.py:FunctionMap.loadFunction", "ndg/xacml/core/functions/__init__.py:FunctionClassFactoryBase.__call__"]}
{"id": "C73", "title": "Requests decided at the same time do not influence each other", "statement": "When several threads have requests decided by one PDP at the same time, and policies are replaced meanwhile, each request gets exactly the response (or exception) it gets when it is decided alone under the policy in force when its evaluation began; every evaluation finishes if its thread keeps being scheduled, and later requests are not affected.", "quantifier": "every environment, policies, number of threads, requests with stateless PIPs, and every interleaving of their steps and of policy replacements, after every history", "why_tests_cant": "a test runs one interleaving it cannot choose, while the evaluator shares a regular expression cache and a mutable policy attribute between all threads", "anchors": ["ndg/xacml/core/context/pdp.py:PDP.evaluate", "ndg/xacml/core/functions/v1/regexp_match.py:RegexpMatchBase.evaluate", "ndg/xacml/core/policy.py:Policy.evaluate", "ndg/xacml/core/policyset.py:PolicySet.evaluate"]}
{"id": "C74", "title": "The function map can be used by several threads", "statement": "Lookups of function identifiers by several threads, while functions are registered by others, give what they give one after the other: a lookup of an identifier nobody registers is not influenced, standard identifiers always give the standard function, and once a registration has returned every lookup that starts afterwards gives the registered function. No call waits for another.", "quantifier": "every set of lookups and registrations, every interleaving of their accesses to the map, after every history", "why_tests_cant": "the map is filled lazily by check, import and store without a lock, so the result depends on interleavings a test cannot force", "anchors": ["ndg/xacml/core/functions/__init__.py:FunctionMap.loadFunction", "ndg/xacml/core/functions/__init__.py:FunctionMap.get", "ndg/xacml/core/functions/__init__.py:FunctionMap.load_custom_function"]}
{"id": "C75", "title": "Requests, responses and policies can be copied and pickled", "statement": "copy.copy, copy.deepcopy and a round trip through pickle give, for every request, response and policy, an object from which a program reads everything it reads from the original: subjects, resources, attributes and their values, decisions, status codes, obligations, rules.", "quantifier": "every request, response and policy tree, whatever its size and contents", "why_tests_cant": "the classes define __getstate__ and __slots__ piecemeal, so what survives depends on which parts an object has; a test copies the objects it thought of", "anchors": ["ndg/xacml/core/__init__.py:XacmlCoreBase.__getstate__", "ndg/xacml/core/context/__init__.py:XacmlContextBase.__setstate__", "ndg/xacml/core/context/request.py:Request.__getstate__", "ndg/xacml/core/attribute.py:Attribute.__getstate__", "ndg/xacml/core/context/result.py:Result.__getstate__", "ndg/xacml/utils/__init__.py:TypedList.append"]}
{"id": "C76", "title": "Pretty printing keeps the document", "statement": "prettyPrint returns, for every element tree and every indentation by white space, an XML document (after the indentation) that a parser reads as the same tree: the same tags and namespaces, the same attributes, the same texts apart from white space around them. The registry of namespace prefixes is afterwards what it was before.", "quantifier": "every element tree and every registry of namespace prefixes; the property compares the tree with what XML's grammar and the namespace rules say about the printed characters", "why_tests_cant": "the printed text depends on names, values, nesting and on a process-wide registry of prefixes; a test looks at the documents it has", "anchors": ["ndg/xacml/utils/etree.py:prettyPrint", "ndg/xacml/utils/etree.py:_PrettyPrint", "ndg/xacml/parsers/etree/__init__.py:QName"]}
{"id": "C77", "title": "Reading policies leaves the prefixes for writing XML alone", "statement": "Reading policies, whether it succeeds or fails, does not change which namespace prefixes the program's other XML is written with: once the readers are gone, ElementTree's registry of prefixes is what it would be had no policy been read, and while they exist documents are printed as without them.", "quantifier": "every history of readers being created and deleted, in any order and overlap, and of prefixes being registered in between", "why_tests_cant": "readers are deleted when the garbage collector or an exception's traceback lets them go, so their order depends on the rest of the program; a test sees one order", "anchors": ["ndg/xacml/parsers/etree/reader.py:ETreeAbstractReader.__init__", "ndg/xacml/parsers/etree/reader.py:ETreeAbstractReader.__del__", "ndg/xacml/parsers/etree/__init__.py:makeEtreeElement", "ndg/xacml/utils/etree.py:prettyPrint"]}
{"id": "C78", "title": "Objects are found by their dotted names", "statement": "importModuleObject returns, for a module's name and an object's name given separately, joined by a dot or joined by a colon, the object of that name in that module, and nothing else; a missing module raises the import's exception, a missing object AttributeError, an object that is not a subclass of the expected type is refused.", "quantifier": "every Python installation (modules and their contents), search path, module and object name", "why_tests_cant": "names are cut at the last dot or at the colon and resolved step by step through packages, so the outcome depends on what is installed and on every part of the name", "anchors": ["ndg/xacml/utils/factory.py:importModuleObject"]}
{"id": "C79", "title": "Calling an object by name leaves the module search path alone", "statement": "callModuleObject searches the given directory for the module and, however the call ends, afterwards sys.path is what it was.", "quantifier": "every history of calls, with every installation, search path, directory and callee, whether they succeed or raise", "why_tests_cant": "a leak shows only in what later imports find; the history is unbounded", "anchors": ["ndg/xacml/utils/factory.py:callModuleObject"]}
{"id": "C80", "title": "Each element type gets its own reader", "statement": "ReaderFactory.getReader returns for a type the reader last registered for it, else the package's reader for that type; different types of the package get different readers and every type of the package has one.", "quantifier": "every type, every history of registrations, accepted or refused, every installation", "why_tests_cant": "the reader is inferred from the type's bare name; types come from other packages", "anchors": ["ndg/xacml/parsers/etree/factory.py:ReaderFactory.getReader"]}
{"id": "C81", "title": "Decisions and effects are compared by value", "statement": "A decision or effect always has one of the values of its vocabulary; it equals another one of its kind, or a string of the vocabulary, on whichever side of == it stands, exactly if the values are the same, and != is the opposite. An unknown string is an AttributeError, an operand of another type a TypeError; the predefined decisions and effects cannot be changed.", "quantifier": "every instance after every history of assignments, every operand on either side", "why_tests_cant": "histories of assignments are unbounded, and operands may be any object", "anchors": ["ndg/xacml/core/context/result.py:Decision", "ndg/xacml/core/rule.py:Effect", "ndg/xacml/core/obligation.py:Effect"]}
{"id": "C82", "title": "Attributes hold the last suitable value assigned to them", "statement": "Every attribute of policies, rules, matches, requests, results and the other objects can be read at any time; it holds the last value of its documented type that was assigned to it, and None or its default before; values of other types are refused with TypeError and change nothing, and assignments to other attributes and objects have no influence (except that a match has a designator or a selector).", "quantifier": "every attribute with a setter, every history of assignments of any values to any number of objects", "why_tests_cant": "sixty setters, each with its own type test and slot, and unbounded histories", "anchors": ["ndg/xacml/core/__init__.py:XacmlCoreBase", "ndg/xacml/core/rule.py:Rule", "ndg/xacml/core/match.py:MatchBase", "ndg/xacml/core/policy.py:Policy", "ndg/xacml/core/policyset.py:PolicySet", "ndg/xacml/core/context/result.py:StatusCode", "ndg/xacml/core/context/request.py:Request"]}
{"id": "C83", "title": "Created results and error responses contain what they were created with", "statement": "Result.createInitialised gives, for arguments of the documented types and no others, a result with the given decision, resource id, obligations, status code, message and detail; the response of an XacmlContextError says Indeterminate, has the error's message and a status code for an error.", "quantifier": "every combination of arguments", "why_tests_cant": "arguments may be any object", "anchors": ["ndg/xacml/core/context/result.py:Result.createInitialised", "ndg/xacml/core/context/result.py:Status.createInitialised", "ndg/xacml/core/context/exceptions.py:XacmlContextError.__init__"]}
{"id": "C84", "title": "Documents are fetched directly from the hosts in no_proxy", "statement": "A policy document given by URL is opened with proxies turned off exactly if the host in the URL, compared without regard to case, is an entry of the comma-separated environment variable no_proxy, whatever user, port, path, query and fragment the URL has; fetch_data_from_url returns what the server sends and always closes the connection; an error status of the server raises an exception with its text.", "quantifier": "every URL with a host, every value of no_proxy, every behaviour of the network", "why_tests_cant": "all URLs and lists of hosts; failures at every point", "anchors": ["ndg/xacml/utils/urlfetcher.py:open_url", "ndg/xacml/utils/urlfetcher.py:_should_use_proxy", "ndg/xacml/utils/urlfetcher.py:fetch_data_from_url", "ndg/xacml/utils/urlfetcher.py:fetch_stream_from_url"]}
{"id": "C85", "title": "All modules use the same XML library", "statement": "Modules of the package loaded in one process all get the same XML library, the one Config.use_lxml names afterwards: the one chosen in Config.use_lxml before the first is loaded, otherwise lxml if it can be imported and the standard library's ElementTree if not; a module that cannot get the library chosen fails to load.", "quantifier": "every history of loading modules and of lxml becoming available or unavailable", "why_tests_cant": "histories", "anchors": ["ndg/xacml/__init__.py:importElementTree", "ndg/xacml/__init__.py:Config"]}
{"id": "C86", "title": "The context handler is asked only what the policy needs", "statement": "While a request is decided, every query to the context handler is about this request and a subject attribute that the policy designates; the queries come in the order in which the policy designates these attributes, at most one per designator and subject. As soon as a rule or policy settles the decision of its combining algorithm nothing that follows it is evaluated or asked for.", "quantifier": "every policy tree, request, context handler and process history", "why_tests_cant": "the number and order of queries depend on unbounded policy trees and on failures at any point", "anchors": ["ndg/xacml/core/attributedesignator.py:SubjectAttributeDesignator.evaluate", "ndg/xacml/core/rule_combining_alg.py", "ndg/xacml/core/policy_combining_alg.py", "ndg/xacml/core/policybase.py:PolicyBase.evaluate"]}
{"id": "C87", "title": "Regrouping policies does not change decisions", "statement": "Moving policies of a policy set into a nested policy set without target and with the same combining algorithm, or out of it, changes neither the decision nor the queries made; likewise splitting a policy without target into two policies with the same combining algorithm within a policy set with that algorithm.", "quantifier": "every policy set, every group of neighbouring policies or rules, every request, context handler and history", "why_tests_cant": "unbounded policy trees and groupings", "anchors": ["ndg/xacml/core/policy_combining_alg.py", "ndg/xacml/core/rule_combining_alg.py", "ndg/xacml/core/policybase.py:PolicyBase.evaluate"]}
{"id": "C88", "title": "What is sent as pretty-printed text arrives", "statement": "A request written as an element tree, pretty printed, parsed and read is the same request, and likewise a response. So a client and a server that exchange pretty-printed text agree: the client reads the decision that the server's policy gives for the request the client wrote.", "quantifier": "every request and response, every registry of prefixes, every policy document, context handler and history of the server", "why_tests_cant": "unbounded requests, values over all characters, every state of the registry of prefixes", "anchors": ["ndg/xacml/utils/etree.py:prettyPrint", "ndg/xacml/parsers/etree/context.py:RequestElementTree", "ndg/xacml/parsers/etree/context.py:ResponseElementTree", "ndg/xacml/core/context/pdp.py:PDP.evaluate"]}
{"id": "C89", "title": "The layout of a request document does not matter to attribute selectors", "statement": "A program that reads a request document, puts an attribute selector on its element and decides gives the same answer however the document is laid out: white space between elements does not matter. So with selectors, too, a client that sends its request as pretty-printed text reads the decision that the policy has for the request as it was written.", "quantifier": "every request document and layout, every policy with selectors, every path of the ElementPath language, every registry of prefixes, context handler and history", "why_tests_cant": "unbounded documents, paths, policies and layouts", "anchors": ["ndg/xacml/utils/xpath_selector.py:EtreeXPathSelector.selectText", "ndg/xacml/core/attributeselector.py:AttributeSelector.evaluate", "ndg/xacml/parsers/etree/context.py:RequestElementTree", "ndg/xacml/utils/etree.py:prettyPrint"]}
{"id": "C90", "title": "Attribute selectors and attribute designators agree", "statement": "A selector whose path spells out what a designator asks for (part of the request, attribute id, data type, issuer) gives the bag the designator gives, with the same values in the same order, or the same error. A policy in which designators are spelt out as paths gives the same answer to every request document, and to every request that a program makes and writes as an element.", "quantifier": "every request document or request, every policy, every set of its designators, every attribute id, data type and issuer", "why_tests_cant": "unbounded documents, policies, and strings for ids, types and issuers", "anchors": ["ndg/xacml/core/attributedesignator.py:AttributeDesignator.evaluate", "ndg/xacml/core/attributeselector.py:AttributeSelector.evaluate", "ndg/xacml/utils/xpath_selector.py:EtreeXPathSelector.selectText", "ndg/xacml/parsers/etree/context.py:RequestElementTree", "ndg/xacml/core/context/pdp.py:PDP.evaluate"]}
{"id": "C91", "title": "Failures never grant", "statement": "Whatever fails while a request is decided - the context handler, the XPath selector or the regular expression compiler raising whenever they are called, RecursionError, MemoryError, errors of logging handlers or KeyboardInterrupt at any point - if a response comes back its decision is the one that would have been given without failures, or Deny or Indeterminate. So failures never bring about a Permit or a NotApplicable. A single policy never turns failures into Deny either. Failures leave nothing behind that would change later decisions.", "quantifier": "every policy tree, request, set of points at which exceptions are raised, failing context handler, engine and compiler, and process history", "why_tests_cant": "exceptions can arise at every point of an evaluation of unbounded size, in any combination", "anchors": ["ndg/xacml/core/rule.py:Rule.evaluate", "ndg/xacml/core/policybase.py:PolicyBase.evaluate", "ndg/xacml/core/policybase.py:PolicyBase.evaluateResponse", "ndg/xacml/core/rule_combining_alg.py", "ndg/xacml/core/policy_combining_alg.py", "ndg/xacml/core/attributedesignator.py", "ndg/xacml/core/functions/v1/regexp_match.py:RegexpMatchBase.evaluate"]}
{"id": "C92", "title": "The order of a request does not matter", "statement": "Listing the subjects, the resources, the attributes and the attribute values of a request in another order does not change the response.", "quantifier": "every policy tree, request, reordering of it at all levels, context handler, set of custom functions that do not themselves look at order, and process history", "why_tests_cant": "the orders of a request of unbounded size are too many to try, and match functions, bag functions, failing values and the context handler all see the values one after the other", "anchors": ["ndg/xacml/core/attributedesignator.py:SubjectAttributeDesignator.evaluate", "ndg/xacml/core/match.py:MatchBase.evaluate", "ndg/xacml/core/functions/v1/at_least_one_member_of.py", "ndg/xacml/core/functions/v1/one_and_only.py", "ndg/xacml/core/context/pdp.py:PDP.evaluate"]}
{"id": "C93", "title": "The order within targets does not matter", "statement": "Listing the entries of a target's sections, or the match elements of an entry, in another order does not change whether the target matches, does not match or fails. So it does not change the response, at any depth of a policy, and neither does reordering the rules and policies below deny-overrides and permit-overrides at the same time.", "quantifier": "every policy tree, reordering of it, request and process history", "why_tests_cant": "targets contain any number of entries and match elements, each of which can be true, false or fail", "anchors": ["ndg/xacml/core/target.py:Target.match", "ndg/xacml/core/target.py:Target._matchChild", "ndg/xacml/core/rule.py:Rule.evaluate", "ndg/xacml/core/policybase.py:PolicyBase.evaluate"]}
{"id": "C94", "title": "Attribute and issuer names are only names", "statement": "Giving attributes and issuers other names - in the policy, the request and the context handler alike, different names to different ones - does not change the response. No attribute name has a special meaning to the PDP.", "quantifier": "every one-to-one renaming, policy tree, request, context handler and process history", "why_tests_cant": "there are infinitely many names", "anchors": ["ndg/xacml/core/attributedesignator.py", "ndg/xacml/core/context/attribute.py:Attribute", "ndg/xacml/core/context/pdp.py:PDP.evaluate"]}
{"id": "C95", "title": "Extending the package does not disturb what worked before", "statement": "Registering classes and readers for further data types and further functions, at any time, changes nothing for policies, requests and services that worked before: what could be read is read as before, the same documents are fetched, and every request gets the same response with the same effects. (Registering without overwrite never replaces a class.)", "quantifier": "every history of registrations, deletions and lookups, every sequence of additions after it, every policy document with its references, request document, policy tree, request and process state", "why_tests_cant": "histories, registrations and documents are unbounded; tests register one class and look at it", "anchors": ["ndg/xacml/core/attributevalue.py:AttributeValueClassFactory.addClass", "ndg/xacml/parsers/etree/attributevaluereader.py:DataTypeReaderClassFactory.addReader", "ndg/xacml/core/functions/__init__.py:FunctionMap.load_custom_function"]}
{"id": "C96", "title": "A class registered with overwrite is used from then on", "statement": "After a class for a data type was registered with overwrite, the functions for the data type work on values of the new class, whatever was looked up before.", "quantifier": "every history of registrations, deletions and lookups and every function for a data type", "why_tests_cant": "depends on the order of all calls made in the process before", "anchors": ["ndg/xacml/core/attributevalue.py:AttributeValueClassFactory.addClass", "ndg/xacml/core/functions/__init__.py:FunctionMap.loadFunction", "ndg/xacml/core/functions/__init__.py:FunctionClassFactoryBase"]}
{"id": "C97", "title": "A policy is assembled from one version of each document", "statement": "If documents are edited while a policy with references is loaded, the policy that results (if loading succeeds) is one that could have been loaded from documents that do not change: no document is used in two versions.", "quantifier": "every policy document with its references, every way documents can change between fetches, every recursion limit and history of the finder", "why_tests_cant": "the change has to fall between two fetches of one load", "anchors": ["ndg/xacml/finder/urlpolicyfinder.py:URLPolicyFinder", "ndg/xacml/finder/policyfinderbase.py:PolicyFinderBase", "ndg/xacml/core/context/pdp.py:PDP.fromPolicySource"]}
{"id": "C98", "title": "Threads can print documents at the same time", "statement": "A document that is pretty-printed while other threads print, write and read other documents comes out as if it was printed alone: an XML document that says the same. Afterwards the registry of namespace prefixes is as it was.", "quantifier": "every set of documents, threads, initial registry of prefixes and schedule", "why_tests_cant": "the result depends on the moment another thread puts the registry back", "anchors": ["ndg/xacml/utils/etree.py:prettyPrint", "ndg/xacml/utils/etree.py:_PrettyPrint", "ndg/xacml/parsers/etree/__init__.py:makeEtreeElement", "ndg/xacml/parsers/etree/reader.py:ETreeAbstractReader"]}
{"id": "C99", "title": "Qualified names are equal if they name the same thing", "statement": "Qualified names made of a namespace and a local name, or of text {namespace}local, are equal exactly if namespace and local name are the same, whatever their prefixes; equality is an equivalence relation, agrees with the text by which names stand in documents and with their order, and equal names can be used as the same dictionary key.", "quantifier": "every pair of names, way of making them and history of assignments to their properties", "why_tests_cant": "infinitely many texts, namespaces and histories", "anchors": ["ndg/xacml/parsers/etree/__init__.py:QName"]}
{"id": "C100", "title": "Data types can be registered while requests are decided", "statement": "When a thread registers a data type while others have requests decided, each request is decided as with the classes registered when its evaluation began, or as with those registered when it ended, never with a mixture; registrations of types that the policy does not use change nothing, none is lost, and a request whose evaluation begins afterwards is decided with the new class.", "quantifier": "every policy, number of threads and requests with stateless PIPs, every interleaving of their steps with policy replacements and registrations, after every history", "why_tests_cant": "the window between two lookups of one evaluation is not reached by tests, and whether it matters depends on the policy", "anchors": ["ndg/xacml/core/attributevalue.py:AttributeValueClassFactory.addClass", "ndg/xacml/core/attributevalue.py:AttributeValueClassFactory.__call__", "ndg/xacml/core/attributeselector.py:AttributeSelector.evaluate", "ndg/xacml/core/attributedesignator.py:SubjectAttributeDesignator.evaluate", "ndg/xacml/core/context/pdp.py:PDP.evaluate"]}
{"id": "C101", "title": "Targets can be moved between a policy and its rules", "statement": "A target of a policy (or policy set) can be written into the targets of all its rules (or child policies) instead, and a target common to all of them can be written once at the top, without changing any decision, as long as the two targets restrict different sections, there is a rule, and no target fails; if one fails, writing the target into the rules only turns NotApplicable into Indeterminate or, in a deny-overrides policy set, NotApplicable or Indeterminate into Deny.", "quantifier": "every policy or policy set, target, request, position of failures, combining algorithm and history", "why_tests_cant": "infinitely many policies and requests, each rewritten", "anchors": ["ndg/xacml/core/target.py:Target.match", "ndg/xacml/core/rule.py:Rule.evaluate", "ndg/xacml/core/policybase.py:PolicyBase.evaluate"]}
{"id": "C102", "title": "Alternatives can be written as several rules", "statement": "A rule (or policy) whose target lists several alternatives for subjects, resources, actions or environments can be written as two rules (policies) side by side that list some of the alternatives each, and the other way round, without changing any decision, as long as no alternative fails; if one fails, the joint form never grants what the separate form does not.", "quantifier": "every list of alternatives and way to part it, section, place among other rules or policies, combining algorithm, request and history", "why_tests_cant": "infinitely many policies and requests, each rewritten", "anchors": ["ndg/xacml/core/target.py:Target.match", "ndg/xacml/core/rule_combining_alg.py", "ndg/xacml/core/policy_combining_alg.py"]}
{"id": "C103", "title": "Functions reject arguments with the exceptions of XACML contexts", "statement": "A standard function called with the right number of arguments, some of them not of the types it is for, raises XacmlContextError or its subclass XacmlContextTypeError; with a wrong number of arguments it raises TypeError; which exception is raised depends only on the arguments and not on earlier evaluations.", "quantifier": "every standard function, every list of arguments and every earlier history of evaluations", "why_tests_cant": "infinitely many argument lists and histories; the cache of regular expressions is shared by all evaluations", "anchors": ["ndg/xacml/core/functions/v1/equal.py:EqualBase.evaluate", "ndg/xacml/core/functions/v1/one_and_only.py:OneAndOnlyBase.evaluate", "ndg/xacml/core/functions/v1/regexp_match.py:RegexpMatchBase.evaluate", "ndg/xacml/core/functions/v1/round.py:Round.evaluate", "ndg/xacml/core/functions/v2/concatenate.py:ConcatenateBase.evaluate"]}
{"id": "C104", "title": "More attributes never revoke what was granted for having attributes", "statement": "If all rules of a policy or policy set have the same effect and only look for attribute values (matches, common members of bags, and), then adding subjects, resources, attributes or attribute values to a request never changes a decision that was that effect, as long as the larger request has what the policy requires to be present and its values are of the types they say; the larger request gets the effect or NotApplicable.", "quantifier": "every such policy tree, every pair of requests of which one says more than the other, every histories of evaluations", "why_tests_cant": "infinitely many policies, requests and extensions of requests", "anchors": ["ndg/xacml/core/target.py:Target.match", "ndg/xacml/core/attributedesignator.py:SubjectAttributeDesignator.evaluate", "ndg/xacml/core/functions/v1/at_least_one_member_of.py:AtLeastOneMemberOfBase.evaluate", "ndg/xacml/core/rule_combining_alg.py", "ndg/xacml/core/policy_combining_alg.py"]}
{"id": "C105", "title": "Attribute values are only compared, no value is special", "statement": "If values are replaced by other ones of the same type, equal ones by equal ones and different ones by different ones, everywhere - in the policy, the request, the answers of the context handler and the texts that XPath finds - then a policy whose functions only compare, collect and count values gives the same response, and asks the context handler the same questions in the new values. In particular values that the policy does not mention are interchangeable: two users it does not name are treated alike.", "quantifier": "every policy tree without regexp-match, concatenate and custom functions that look into values, every request, context handler (with memory or without) and XPath result, every one-to-one replacement of values", "why_tests_cant": "infinitely many values and replacements; a special case for one value among all is not found by trying some", "anchors": ["ndg/xacml/core/functions/v1/equal.py:EqualBase.evaluate", "ndg/xacml/core/functions/v1/match.py:MatchBase.evaluate", "ndg/xacml/core/functions/v1/at_least_one_member_of.py:AtLeastOneMemberOfBase.evaluate", "ndg/xacml/core/attributevalue.py:AttributeValue.__eq__", "ndg/xacml/core/attributedesignator.py", "ndg/xacml/core/attributeselector.py:AttributeSelector.evaluate", "ndg/xacml/core/match.py:MatchBase.evaluate"]}
{"id": "C106", "title": "A policy document that cannot be used is reported by an XMLParseError", "statement": "Reading a document that is not a usable policy or policy set raises an XMLParseError, which a caller can handle; nothing else is raised.", "quantifier": "every document (any tree of elements, depth and size), every finder, every set of registered functions, attribute value classes and readers", "why_tests_cant": "documents can be wrong in unboundedly many ways and places; an error path that raises something else shows only for the document that takes it", "anchors": ["ndg/xacml/parsers/etree/policyreader.py:PolicyReader.processElement", "ndg/xacml/parsers/etree/policysetreader.py:PolicySetReader.processElement", "ndg/xacml/parsers/etree/rulereader.py", "ndg/xacml/parsers/etree/matchreader.py", "ndg/xacml/parsers/etree/conditionreader.py", "ndg/xacml/parsers/etree/applyreader.py", "ndg/xacml/finder/urlpolicyfinder.py:UrlPolicyFinder"]}
{"id": "C107", "title": "A request or response document that cannot be used is reported by an XMLParseError", "statement": "Reading a document that is not a request (or response) raises an XMLParseError, so that a service can answer a client who sent it; nothing else is raised.", "quantifier": "every document (any tree of elements), every registry of attribute value classes, every XML library", "why_tests_cant": "clients send unboundedly many kinds of wrong documents", "anchors": ["ndg/xacml/parsers/etree/context.py:RequestElementTree.fromXML", "ndg/xacml/parsers/etree/context.py:AttributeElementTree.fromXML", "ndg/xacml/parsers/etree/context.py:ResponseElementTree.fromXML", "ndg/xacml/parsers/etree/context.py:DecisionElementTree.fromXML"]}
{"id": "C108", "title": "Permit and Deny are treated alike", "statement": "Exchanging Permit and Deny in the effects of all rules and deny-overrides with permit-overrides in all combining algorithms exchanges Permit and Deny in the response to every request and changes nothing else.", "quantifier": "every policy and policy set of any size and depth, every request, context handler and history", "why_tests_cant": "the two override algorithms are separate code for rules and for policies, and an asymmetry shows only for particular mixtures of decisions", "anchors": ["ndg/xacml/core/rule_combining_alg.py:DenyOverridesRuleCombiningAlg.evaluate", "ndg/xacml/core/rule_combining_alg.py:PermitOverridesRuleCombiningAlg.evaluate", "ndg/xacml/core/policy_combining_alg.py:DenyOverridesPolicyCombiningAlg.evaluate", "ndg/xacml/core/policy_combining_alg.py:PermitOverridesPolicyCombiningAlg.evaluate", "ndg/xacml/core/rule.py:Rule.evaluate"]}
{"id": "C109", "title": "Saying something again does not change decisions", "statement": "Repeating or merging equal rules or policies, also in another order, under an override algorithm, and adding or dropping later repetitions under first-applicable, anywhere inside a policy set, changes no response, if the context handler answers equal questions equally.", "quantifier": "every policy set of any size and depth, any number of such changes in it, every request and history", "why_tests_cant": "a policy can repeat itself in unboundedly many ways", "anchors": ["ndg/xacml/core/rule_combining_alg.py:DenyOverridesRuleCombiningAlg.evaluate", "ndg/xacml/core/rule_combining_alg.py:FirstApplicableRuleCombiningAlg.evaluate", "ndg/xacml/core/policy_combining_alg.py:DenyOverridesPolicyCombiningAlg.evaluate", "ndg/xacml/core/policy_combining_alg.py:PermitOverridesPolicyCombiningAlg.evaluate", "ndg/xacml/core/policybase.py:PolicyBase.evaluate"]}
{"id": "C110", "title": "Restricting Permit rules never grants", "statement": "Adding conditions to Permit rules without one and narrowing the targets of Permit rules (new sections, more match elements in an alternative), anywhere inside a policy or policy set, never turns a decision into Permit: a decision other than Permit stays as it is or becomes Deny or Indeterminate, if the context handler answers equal questions equally.", "quantifier": "every policy set of any size and depth, any number of restricted Permit rules in it, every request and history", "why_tests_cant": "there are unboundedly many policies, places and ways to restrict a rule", "anchors": ["ndg/xacml/core/rule.py:Rule.evaluate", "ndg/xacml/core/target.py:Target.match", "ndg/xacml/core/rule_combining_alg.py:DenyOverridesRuleCombiningAlg.evaluate", "ndg/xacml/core/policy_combining_alg.py:DenyOverridesPolicyCombiningAlg.evaluate", "ndg/xacml/core/policybase.py:PolicyBase.evaluate"]}
{"id": "C111", "title": "Widening Deny rules never grants", "statement": "Dropping conditions of Deny rules and widening their targets (dropping sections, or match elements of alternatives), anywhere inside a policy or policy set, never turns a decision into Permit: a decision other than Permit stays as it is or becomes Deny or Indeterminate, if the context handler answers equal questions equally.", "quantifier": "every policy set of any size and depth, any number of widened Deny rules in it, every request and history", "why_tests_cant": "there are unboundedly many policies, places and ways to widen a rule", "anchors": ["ndg/xacml/core/rule.py:Rule.evaluate", "ndg/xacml/core/target.py:Target.match", "ndg/xacml/core/rule_combining_alg.py:DenyOverridesRuleCombiningAlg.evaluate", "ndg/xacml/core/policy_combining_alg.py:DenyOverridesPolicyCombiningAlg.evaluate", "ndg/xacml/core/policybase.py:PolicyBase.evaluate"]}
{"id": "C112", "title": "Conditions can be rewritten with boolean algebra", "statement": "Reordering, repeating, nesting and flattening the arguments of and, dropping an and of one boolean argument, dropping a double negation of a boolean expression, and swapping the arguments of <type>-equal and <type>-at-least-one-member-of, anywhere inside expressions and in conditions anywhere in a policy or policy set, changes no response and not when evaluation fails, if the context handler answers equal questions equally.", "quantifier": "every expression of any size and depth, every policy set, any number of such steps in it, every request and history", "why_tests_cant": "there are unboundedly many expressions and ways to rewrite them", "anchors": ["ndg/xacml/core/functions/v1/and.py:And.evaluate", "ndg/xacml/core/functions/v1/not.py:Not.evaluate", "ndg/xacml/core/functions/v1/equal.py:EqualBase.evaluate", "ndg/xacml/core/functions/v1/at_least_one_member_of.py:AtLeastOneMemberOfBase.evaluate", "ndg/xacml/core/apply.py:Apply.evaluate", "ndg/xacml/core/condition.py:Condition.evaluate"]}
{"id": "C113", "title": "Targets can be written as conditions", "statement": "A rule without condition whose target has no alternatives and compares with <type>-equal, the value and the designators or selectors having that type, decides like the rule without target whose condition is the and of <type>-at-least-one-member-of(<type>-bag(value), designator or selector): exchanging such rules anywhere in a policy or policy set, in both directions, changes no response, if the context handler answers equal questions equally.", "quantifier": "every target of any size, every policy set, any number of rules exchanged in it, every request and history", "why_tests_cant": "there are unboundedly many targets, policies and requests, including those for which evaluation fails", "anchors": ["ndg/xacml/core/target.py:Target.match", "ndg/xacml/core/match.py:MatchBase.evaluate", "ndg/xacml/core/rule.py:Rule.evaluate", "ndg/xacml/core/functions/v1/bag.py:BagBase.evaluate", "ndg/xacml/core/functions/v1/at_least_one_member_of.py:AtLeastOneMemberOfBase.evaluate", "ndg/xacml/core/functions/v1/and.py:And.evaluate"]}
{"id": "C114", "title": "Targets are formulas", "statement": "Two targets that contain the same match elements and are logically equivalent, each section being the disjunction of its entries (true if there are none) and each entry the conjunction of its match elements, match alike: both match, neither does or both fail. So entries and match elements can be repeated, merged, absorbed, factored out and distributed in targets anywhere in a policy or policy set without changing a response, if the context handler answers equal questions equally.", "quantifier": "every pair of such targets of any size, every policy set of any depth with any number of its targets so exchanged, every request and history", "why_tests_cant": "there are unboundedly many formulas, and for each of them the truth values and failures of all its match elements", "anchors": ["ndg/xacml/core/target.py:Target.match", "ndg/xacml/core/target.py:Target._matchChild", "ndg/xacml/core/match.py:MatchBase.evaluate", "ndg/xacml/core/rule.py:Rule.evaluate", "ndg/xacml/core/policybase.py:PolicyBase.evaluate"]}
{"id": "C115", "title": "A default decision fills the gaps and nothing else", "statement": "Appending a rule without target and condition to a policy, or a policy with just such a rule to a policy set, under first-applicable or under the overrides algorithm of the other effect, changes a decision only to the effect of that rule, and only if the decision was NotApplicable or, under an overrides algorithm, Indeterminate. Every request the target matches then gets a decision other than NotApplicable, and nothing changes for the others. A policy set that contains, below no target, a rule for every request at any depth never answers NotApplicable, whatever its combining algorithms are.", "quantifier": "every policy and policy set of any size and depth, either effect, every request and history", "why_tests_cant": "default rules are relied on for the requests nobody thought of", "anchors": ["ndg/xacml/core/rule_combining_alg.py:FirstApplicableRuleCombiningAlg.evaluate", "ndg/xacml/core/rule_combining_alg.py:PermitOverridesRuleCombiningAlg.evaluate", "ndg/xacml/core/rule_combining_alg.py:DenyOverridesRuleCombiningAlg.evaluate", "ndg/xacml/core/policy_combining_alg.py:PermitOverridesPolicyCombiningAlg.evaluate", "ndg/xacml/core/rule.py:Rule.evaluate", "ndg/xacml/core/policybase.py:PolicyBase.evaluate"]}
{"id": "C116", "title": "A request is a collection of facts", "statement": "Two requests whose subjects, resources, action and environment say the same - the same attribute identifiers, data types, issuers and values, as often - get the same response, however the values are grouped into attributes: an attribute with several values is as good as several attributes with one value each, and attributes without values do not matter. This holds for requests without context handler, and with a context handler that answers alike for requests that say the same of each subject.", "quantifier": "every policy tree, every pair of such requests of any size, every process history", "why_tests_cant": "values can be grouped in unboundedly many ways", "anchors": ["ndg/xacml/core/attributedesignator.py", "ndg/xacml/core/context/attribute.py:Attribute", "ndg/xacml/core/context/request.py:Request", "ndg/xacml/core/match.py:MatchBase.evaluate", "ndg/xacml/core/context/pdp.py:PDP.evaluate"]}
{"id": "C117", "title": "Rules that can have no influence can be dropped", "statement": "Under first-applicable, what follows a rule or policy that has its effect for every request can be dropped; under deny-overrides, everything beside a rule or policy that always denies, and under permit-overrides everything beside one that always permits. No response changes, wherever in the policy and however often this is done, and even if what is dropped cannot be evaluated. A policy or policy set without target in which such a rule comes first, or prevails, gives its effect to every request.", "quantifier": "every policy tree of any size and depth, every request, every process history", "why_tests_cant": "policies, what is dropped from them and requests are unbounded", "anchors": ["ndg/xacml/core/rule_combining_alg.py", "ndg/xacml/core/policy_combining_alg.py", "ndg/xacml/core/policy.py:Policy.evaluate", "ndg/xacml/core/policyset.py:PolicySet.evaluate", "ndg/xacml/core/context/pdp.py:PDP.evaluate"]}
{"id": "C118", "title": "A policy can be cut down to what concerns some requests", "statement": "Leaving out rules, policies and policy sets, anywhere within a policy, that are not applicable to any of a class of requests does not change the response to any request of that class. In particular the policies of a policy set can be preselected by their targets: any selection that leaves out only policies whose targets do not match the request gives the same response. Policies whose targets cannot be evaluated must not be left out.", "quantifier": "every policy tree of any size and depth, every class of requests, every selection, every process history", "why_tests_cant": "policies, classes of requests and selections are unbounded", "anchors": ["ndg/xacml/core/rule_combining_alg.py", "ndg/xacml/core/policy_combining_alg.py", "ndg/xacml/core/policybase.py:PolicyBase.evaluate", "ndg/xacml/core/rule.py:Rule.evaluate", "ndg/xacml/core/context/pdp.py:PDP.evaluate"]}
