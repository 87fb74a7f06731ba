import json
P=[]
def p(id,title,statement,quantifier,why,anchors): P.append(dict(id=id,title=title,statement=statement,quantifier=quantifier,why_tests_cant=why,anchors=anchors))
RC="ndg/xacml/core/rule_combining_alg.py"; PC="ndg/xacml/core/policy_combining_alg.py"; PB="ndg/xacml/core/policybase.py"
p("C01","Rule deny-overrides implements the XACML 2.0 C.1 table",
"Evaluating a Policy's rules under rule-combining-algorithm:deny-overrides gives Deny if some rule decides Deny; otherwise Indeterminate if some rule whose Effect is Deny is Indeterminate; otherwise Permit if some rule decides Permit; otherwise Indeterminate if some rule is Indeterminate; otherwise NotApplicable. No rule after the first Deny is evaluated.",
"every finite list of rules, every assignment of outcomes to them, every request and every PIP history",
"the table ranges over rule lists of any length and all interleavings of four outcomes",[RC+":DenyOverridesRuleCombiningAlg.evaluate","ndg/xacml/core/policy.py:Policy.evaluateCombiningAlgorithm"])
p("C02","Rule permit-overrides implements the XACML 2.0 C.3 table",
"Under rule-combining-algorithm:permit-overrides the result is Permit if some rule decides Permit; otherwise Indeterminate if some Permit-effect rule is Indeterminate; otherwise Deny if some rule decides Deny; otherwise Indeterminate if some rule is Indeterminate; otherwise NotApplicable. No rule after the first Permit is evaluated.",
"every finite list of rules, outcome assignment, request and PIP history","as C01",[RC+":PermitOverridesRuleCombiningAlg.evaluate"])
p("C03","First-applicable returns the first decision that is not NotApplicable",
"For rules and for policies, first-applicable returns the decision of the earliest child that is Permit, Deny or Indeterminate, NotApplicable if there is none, and evaluates no child after the deciding one.",
"every finite list of rules or policies, every outcome assignment","position of the deciding child is unbounded",[RC+":FirstApplicableRuleCombiningAlg.evaluate",PC+":FirstApplicablePolicyCombiningAlg.evaluate"])
p("C04","Policy deny-overrides treats an Indeterminate child as Deny and never returns Indeterminate",
"Under policy-combining-algorithm:deny-overrides the result is Deny if some child policy decides Deny or Indeterminate; otherwise Permit if some child decides Permit; otherwise NotApplicable; no child after the deciding one is evaluated.",
"every finite list of child policies and policy sets, every outcome assignment","fail-safe behaviour must hold for every mix of outcomes",[PC+":DenyOverridesPolicyCombiningAlg.evaluate"])
p("C05","Policy permit-overrides implements the XACML 2.0 C.4 table",
"Under policy-combining-algorithm:permit-overrides the result is Permit if some child decides Permit; otherwise Deny if some child decides Deny; otherwise Indeterminate if some child is Indeterminate; otherwise NotApplicable; no child after the first Permit is evaluated.",
"every finite list of children, every outcome assignment","as C04",[PC+":PermitOverridesPolicyCombiningAlg.evaluate"])
p("C06","Evaluation is total: PDP.evaluate returns exactly one result with one of the four decisions",
"For a PDP with a policy set, evaluate never raises whatever the request object, policy content, function behaviour or PIP behaviour (for any ordinary Exception raised inside), and the response holds exactly one result whose decision is Permit, Deny, NotApplicable or Indeterminate. With no policy set it raises AttributeError.",
"every policy tree (any depth and width), every context object including non-Requests, every PIP and function behaviour","errors can arise at any point of any nesting",["ndg/xacml/core/context/pdp.py:PDP.evaluate",PB+":PolicyBase.evaluateResponse","ndg/xacml/core/rule.py:Rule.evaluate"])
p("C07","Applicability gates evaluation",
"If a Rule, Policy or PolicySet target does not match, its decision is NotApplicable and neither its condition nor any of its children is evaluated (no PIP query beyond those of the target); if evaluating the target fails, the decision is Indeterminate; if there is no target, the element applies to every request.",
"every rule, policy and policy set, every request and PIP history","must hold for arbitrary nesting and side-effecting PIPs",[PB+":PolicyBase.evaluate","ndg/xacml/core/rule.py:Rule.evaluate"])
p("C08","Target matching is the AND of ORs of ANDs",
"When no match element fails, a target matches exactly when for each of its four sections (subjects, resources, actions, environments) the section is empty or has some entry all of whose match elements are true.",
"every target of any size, every request","unbounded nesting of sections, entries and matches",["ndg/xacml/core/target.py:Target.match","ndg/xacml/core/target.py:Target._matchChild"])
p("C09","Errors in targets follow the XACML 2.0 section 7.6 tables",
"Per XACML tables: an entry with a False match is No-match even if a sibling match fails; a section with a matching entry matches even if another entry fails; only otherwise is it Indeterminate. The code instead makes the whole target fail as soon as any match element fails.",
"every target and every assignment of True/False/error to match elements","combination of errors and sibling values is unbounded",["ndg/xacml/core/target.py:Target.match","ndg/xacml/core/match.py:MatchBase.evaluate"])
p("C10","A match element is true iff its function holds of some value of the designated bag",
"A SubjectMatch/ResourceMatch/ActionMatch/EnvironmentMatch is true iff its match function returns true for (literal value, v) for some v in the bag of its designator (or selector); every value is checked, so an error for any value makes the match fail; argument order is literal first.",
"every match element, bag size and function","bags are unbounded and an error may hide behind an earlier success",["ndg/xacml/core/match.py:MatchBase.evaluate"])
p("C11","A rule yields its Effect exactly when its target matches and its condition is true",
"A Rule decides its Effect iff its target (if any) matches and its condition (if any) evaluates to true; NotApplicable if the target does not match or the condition is false; Indeterminate if either fails. The condition's boolean value is what counts.",
"every rule, condition expression and request","conditions are arbitrary expression trees",["ndg/xacml/core/rule.py:Rule.evaluate","ndg/xacml/core/condition.py:Condition.evaluate"])
p("C12","No Permit without a Permit rule that fired",
"If the PDP answers Permit then some Rule with Effect Permit in the policy tree decided Permit for this request and every target on the path from the root to it matched. In particular a tree with no Permit rule can never answer Permit.",
"every policy tree of any depth, every mix of combining algorithms, every request and PIP history","safety over all trees",[PB+":PolicyBase.evaluate",RC,PC])
p("C13","Attribute designators return exactly the matching values, in document order",
"Without a PIP, a Subject/Resource/Action/Environment attribute designator returns the bag of all values v such that v's DataType equals the designator's and v belongs to an attribute of that category with the same AttributeId and DataType and, when the designator has an Issuer, the same Issuer; in document order, with multiplicity, and nothing else.",
"every request (any number of subjects, attributes, values) and every designator","completeness ranges over all request contents",["ndg/xacml/core/attributedesignator.py"])
p("C14","MustBePresent turns an empty bag into an error, and nothing else does",
"A designator or selector with MustBePresent raises MissingAttributeError iff its bag is empty; without MustBePresent an empty bag is returned.",
"every designator/selector and request","absence must be checked for every request",["ndg/xacml/core/attributedesignator.py","ndg/xacml/core/attributeselector.py"])
p("C15","Bags are homogeneous",
"Every bag produced by evaluating a designator, a selector or a <type>-bag function declares the class registered for its DataType as element type and contains only instances of that class, whatever the PIP returns.",
"every expression, request and PIP behaviour","PIP results are arbitrary objects",["ndg/xacml/core/attributedesignator.py","ndg/xacml/core/attributeselector.py","ndg/xacml/core/functions/v1/bag.py"])
p("C16","The PIP is queried exactly once per subject, only by subject designators, after that subject's own attributes",
"Evaluating a SubjectAttributeDesignator with a context handler performs one query per subject in the request, in order, up to the first failure; with no subjects none is made; resource, action and environment designators and selectors make none.",
"every request, designator and PIP behaviour and history","number and order of side effects over arbitrary requests",["ndg/xacml/core/attributedesignator.py:SubjectAttributeDesignator.evaluate"])
p("C17","PIP values already known are not duplicated",
"Values returned by the PIP that equal a value already in the bag are not added again, so querying the PIP adds no duplicates to the bag.",
"every request and PIP answer","depends on all pairs of values",["ndg/xacml/core/attributedesignator.py:SubjectAttributeDesignator.evaluate"])
p("C18","Apply evaluates every argument exactly once, left to right, before the function",
"Apply.evaluate evaluates its argument expressions in order, each exactly once, and then calls the function once on exactly those results; if an argument fails, later arguments and the function are not evaluated and that failure is the result.",
"every expression tree and PIP history","arity and nesting are unbounded",["ndg/xacml/core/apply.py:Apply.evaluate"])
p("C19","and / not are the boolean connectives on booleans and reject everything else",
"and() of booleans is true iff all are true (true for none); not(b) is the negation; if any argument is not a native boolean the call fails with XacmlContextTypeError, even if an earlier argument is false. A boolean AttributeValue is such a non-boolean.",
"every argument list","arity unbounded",["ndg/xacml/core/functions/v1/and.py","ndg/xacml/core/functions/v1/not.py"])
p("C20","<type>-equal compares values of the declared type and rejects others",
"<type>-equal returns whether the two attribute values' values are equal when both are instances of the function's type and fails with XacmlContextTypeError otherwise; it is symmetric, and reflexive except for NaN. <type>-match agrees with it on values of the same class.",
"every pair of arguments of every type","all pairs",["ndg/xacml/core/functions/v1/equal.py","ndg/xacml/core/functions/v1/match.py","ndg/xacml/core/attributevalue.py:AttributeValue.__eq__"])
p("C21","one-and-only inverts bag on singletons and rejects every other bag",
"<type>-one-and-only(b) returns the single element of b if b is a bag of exactly that type with exactly one element, and fails with XacmlContextError otherwise; <type>-bag followed by <type>-one-and-only is the identity.",
"every bag and argument","all sizes",["ndg/xacml/core/functions/v1/one_and_only.py","ndg/xacml/core/functions/v1/bag.py"])
p("C22","<type>-at-least-one-member-of is non-empty intersection by value",
"On two bags declared with exactly the function's type the result is true iff some value occurs in both; it is symmetric, insensitive to order and multiplicity, and monotone in each bag; any other argument fails with XacmlContextTypeError.",
"every pair of bags","all sizes and orders",["ndg/xacml/core/functions/v1/at_least_one_member_of.py"])
p("C23","concatenate joins its arguments in order",
"string-concatenate and url-string-concatenate of at least two arguments (first of the result type, the rest strings) return an attribute value of the result type whose value is the arguments' values joined in order; fewer arguments or other types are rejected.",
"every argument list","arity unbounded",["ndg/xacml/core/functions/v2/concatenate.py"])
p("C24","The compiled-regex cache is transparent",
"The result of <type>-regexp-match never depends on which patterns were matched before: after any history of evaluations it equals compiling the pattern afresh and matching.",
"every history of regexp-match calls by any function of the family","all histories",["ndg/xacml/core/functions/v1/regexp_match.py:RegexpMatchBase.evaluate"])
p("C25","Decisions do not depend on earlier requests",
"If the PIP is stateless (its answer depends only on the query), evaluating a request yields the same decision whatever requests and policies were evaluated before in the process.",
"every history of evaluations, every policy tree, every request","all histories",[PB+":PolicyBase.evaluate","ndg/xacml/core/functions/v1/regexp_match.py"])
p("C26","Overrides algorithms are independent of child order",
"With a stateless PIP, permuting the rules of a deny-overrides or permit-overrides policy, or the children of a deny-overrides or permit-overrides policy set, does not change the decision.",
"every permutation of every list","factorially many orders",[RC,PC])
p("C27","Inapplicable children are irrelevant",
"With a stateless PIP, inserting or removing at any position a rule or policy that is NotApplicable does not change the decision under any of the six algorithms.",
"every list and position","unbounded",[RC,PC])
p("C28","The four Decision constants can always be trusted",
"The decision objects inside earlier responses are independent: changing the value of a decision in one response does not affect later evaluations.",
"every history of evaluations interleaved with caller assignments to response decisions","histories",["ndg/xacml/core/context/result.py:Decision","ndg/xacml/core/rule.py:Rule.evaluate",PB+":PolicyBase.evaluateResponse"])
p("C29","An Indeterminate response carries an error status",
"A response whose decision is Indeterminate carries a status code other than OK that describes the error.",
"every evaluation","every failure path",[PB+":PolicyBase.evaluateResponse","ndg/xacml/core/context/result.py:Result.createInitialised"])
p("C30","Obligations whose FulfillOn equals the decision are returned",
"The result returned by PDP.evaluate carries the obligations of the policies that contributed to the decision with matching FulfillOn.",
"every policy tree and request","all trees",[PB+":PolicyBase.evaluateResponse","ndg/xacml/core/obligation.py"])
p("C31","Setting a combining algorithm id is all-or-nothing",
"Assigning ruleCombiningAlgId/policyCombiningAlgId either installs the algorithm with that identifier or fails leaving the policy as it was; after any history of assignments the algorithm in force is the one named by the identifier.",
"every history of assignments of arbitrary strings","histories",["ndg/xacml/core/policy.py:Policy._setRuleCombiningAlgId","ndg/xacml/core/policyset.py:PolicySet._setPolicyCombiningAlgId"])
p("C32","Exactly the three documented combining algorithms of each kind are accepted",
"Assigning an identifier succeeds iff it is one of deny-overrides, permit-overrides, first-applicable of the proper family (rule 1.0 / policy 1.0), and then evaluation follows that algorithm; any other string fails.",
"every string","infinitely many strings",[RC+":RuleCombiningAlgClassFactory",PC+":PolicyCombiningAlgClassFactory"])
p("C33","A match element never has both a designator and a selector",
"After any sequence of assignments to attributeDesignator and attributeSelector at most one of them is set, namely the one assigned last successfully; failed assignments change nothing.",
"every history of setter calls","histories",["ndg/xacml/core/match.py:MatchBase"])
p("C34","Function lookup is stable",
"Looking up a function URN in the function map gives the same outcome at every later time regardless of which other URNs were looked up in between and in which order; lookups only ever add cache entries.",
"every history of lookups","histories",["ndg/xacml/core/functions/__init__.py:FunctionMap"])
p("C35","Standard functions resolve to their implementation or to 'not implemented'",
"For every URN in the XACML standard list, lookup yields the implementing function class of the right family and type, or the marker for unimplemented standard functions; which ones are implemented is exactly the documented set.",
"every standard URN and every lookup history","whole table under all histories",["ndg/xacml/core/functions/__init__.py:FunctionMap.loadFunction","ndg/xacml/core/functions/__init__.py:FunctionClassFactoryBase.loadFunction"])
p("C36","Custom functions cannot replace standard ones",
"load_custom_function with a standard URN always fails and changes nothing; after any history of load_custom_function and lookups, every standard URN still resolves as in C35 and every successfully registered custom URN resolves to the function last registered.",
"every history of registrations and lookups","histories",["ndg/xacml/core/functions/__init__.py:FunctionMap.load_custom_function"])
p("C37","Registering attribute value classes is conservative",
"addClass without overwrite never changes the class of an identifier already registered; with overwrite it changes only that identifier; invalid classes or identifiers are rejected without effect.",
"every history of addClass calls","histories",["ndg/xacml/core/attributevalue.py:AttributeValueClassFactory.addClass"])
p("C38","An attribute value always holds a value of its native type",
"After any history of assignments, an attribute value's value is unset or an instance of its class's native type; failed assignments leave it unchanged.",
"every history of assignments for every one of the classes","histories",["ndg/xacml/core/attributevalue.py:AttributeValue._set_value"])
p("C39","Attribute value equality is an equivalence within a class and an error across classes",
"v == w for attribute values of one class compares their values: reflexive (except NaN), symmetric, transitive; comparing values of different classes raises TypeError.",
"every triple of attribute values","all triples",["ndg/xacml/core/attributevalue.py:AttributeValue.__eq__"])
p("C40","TypedList stays homogeneous and its failed updates are atomic",
"After any history of append, extend and += on a TypedList built empty, every element is an instance of the element type; an update containing a wrong item raises TypeError and leaves the list unchanged; a correct update adds exactly the given items in order.",
"every history, every iterable","histories",["ndg/xacml/utils/__init__.py:TypedList"])
p("C41","UniqList never holds duplicates",
"After any history of append, extend and += a UniqList contains no two equal items and contains every item offered, in order of first offer.",
"every history","histories",["ndg/xacml/utils/__init__.py:UniqList"])
p("C42","VettedDict only ever holds vetted pairs and otherwise behaves as a dict",
"After any history of set, delete and update every stored pair passed both filters; a lookup returns the last vetted value stored under the key and not deleted since; get with a default returns the default for a missing key.",
"every history and every pair of filters","histories",["ndg/xacml/utils/__init__.py:VettedDict"])
p("C43","RestrictedKeyNamesDict only ever holds the key names given at construction",
"After any history of item assignment, update, setdefault and deletion the key set is contained in the initial one; an unknown key raises KeyError and leaves the dict unchanged.",
"every history","histories",["ndg/xacml/utils/__init__.py:RestrictedKeyNamesDict"])
p("C44","Reading a policy keeps every rule, in order, and rejects what it does not understand",
"Parsing a Policy document succeeds only if every child element is known and supported, all required attributes are present and rule ids are distinct; then the rules of the policy are exactly those of the Rule elements in document order.",
"every XML element tree","all documents",["ndg/xacml/parsers/etree/policyreader.py","ndg/xacml/parsers/etree/rulereader.py"])
p("C45","Comments and processing instructions are ignored by the policy reader",
"Inserting or removing comments and processing instructions anywhere in a policy document does not change the policy read.",
"every document and insertion position","all documents",["ndg/xacml/parsers/etree/__init__.py:getElementChildren","ndg/xacml/parsers/etree"])
p("C46","Namespace prefixes do not matter",
"Two policy documents that differ only in namespace prefixes/URIs bound to elements are read to the same policy.",
"every document","all documents",["ndg/xacml/parsers/etree/__init__.py:QName.getLocalPart"])
p("C47","Attribute values of every supported DataType can be read from policies",
"An AttributeValue element with a registered DataType and valid text is read to an attribute value of that type.",
"every DataType and text","all texts",["ndg/xacml/parsers/etree/attributevaluereader.py"])
p("C48","Policy references resolve to the policy with that id",
"When reading a PolicySet succeeds, each PolicyIdReference/PolicySetIdReference child has been replaced by a policy/policy set whose identifier equals the reference text; a reference that cannot be resolved makes reading fail.",
"every document and every finder state","all documents and reading orders",["ndg/xacml/finder","ndg/xacml/parsers/etree/policysetreader.py"])
p("C49","Policy identifiers stay unique in a finder",
"After any history of registrations the finder maps each identifier to the policy first registered under it; registering a second one under the same identifier fails and changes nothing.",
"every history","histories",["ndg/xacml/finder/policyfinderbase.py"])
p("C50","Reading terminates on cyclic policy references",
"Reading a PolicySet whose references form a cycle terminates with an error.",
"every set of documents reachable by URL","infinite unfolding",["ndg/xacml/finder/urlpolicyfinder.py","ndg/xacml/parsers/etree/policysetreader.py"])
p("C51","Request contexts survive a write/read round trip",
"Writing a Request to XML and reading it back gives the same subjects, resources, action and environment with the same attributes and values.",
"every request","all requests",["ndg/xacml/parsers/etree/context.py"])
p("C52","Response contexts survive a write/read round trip",
"Writing a Response to XML and reading it back gives the same decisions in the same order.",
"every response","all responses",["ndg/xacml/parsers/etree/context.py"])
p("C53","Policy reference URLs are resolved against the base path",
"A reference without scheme or with a relative file: URL resolves to a file URL below/relative to the finder's base path, an absolute path to a file URL for that path, and http, https, ftp and absolute file URLs are used unchanged.",
"every reference string and base path","all strings",["ndg/xacml/finder/urlpolicyfinder.py:UrlPolicyFinder._makeUrlFromReference"])
p("C54","The logging level does not influence decisions",
"Evaluating the same policy and request with debug logging on or off gives the same decision.",
"every policy and request","all inputs at every level",["ndg/xacml/core/match.py:MatchBase.evaluate"])
p("C55","Selector bags mirror the XPath result",
"An AttributeSelector returns one value per text selected by its path, in order, each of the selector's DataType, and fails if the request has no selector, the DataType is unknown, or some selected text is not of the native type.",
"every selection result","all sizes",["ndg/xacml/core/attributeselector.py"])
p("C56","A PDP keeps its policy when loading a new one fails",
"setPolicyFromSource and assignment to policy either install the new policy or raise and leave the previous policy in force.",
"every history of assignments and loads","histories",["ndg/xacml/core/context/pdp.py"])
p("C57","No value supplied by the PIP is lost",
"Every value of the requested type that the context handler returns for a subject is in the designator's bag, or equals one that is, whatever kind of iterable the handler answers with.",
"every PIP answer, including one-shot iterators","all iterables and sizes",["ndg/xacml/core/attributedesignator.py:SubjectAttributeDesignator.evaluate","ndg/xacml/utils/__init__.py:TypedList.extend"])
p("C58","round rounds double values",
"The round function applied to a double attribute value returns the nearest integer, ties to even.",
"every double value","all values",["ndg/xacml/core/functions/v1/round.py:Round.evaluate"])
p("C59","Policies are compositional",
"With a stateless PIP, replacing a policy or policy set anywhere in a policy tree by one that gives the same decision for a request does not change the response to that request.",
"every policy tree, position and pair of sub-policies","trees of unbounded depth and width",["ndg/xacml/core/policy_combining_alg.py","ndg/xacml/core/policybase.py"])
p("C60","Setting a function identifier is all-or-nothing",
"Assigning matchId on a match element or functionId on an Apply either installs the function registered under that identifier or fails leaving the element as it was; after any history of assignments the function in force is the one the identifier names.",
"every function map, loader and history of assignments, including failing ones","histories of unbounded length with failures at any point",["ndg/xacml/core/match.py:MatchBase.matchId","ndg/xacml/core/apply.py:Apply.functionId","ndg/xacml/core/functions/__init__.py:FunctionMap"])
p("C61","A request document means what it says",
"Reading a Request element succeeds exactly if it consists of Subject, Resource, Action and Environment elements whose attributes all have an id, a DataType with a registered string class and at least one value; the result has exactly these subjects, resources and attributes in document order, the last Action and Environment, and access-subject as the default category.",
"every element tree and every class registry","all trees",["ndg/xacml/parsers/etree/context.py"])
p("C62","A response document means what it says",
"Reading a Response element succeeds exactly if it consists of Result elements consisting of Decision elements with one of the four decision words; results come in document order with their resource id and last decision; a document with any other child, such as Status or Obligations, is rejected.",
"every element tree","all trees",["ndg/xacml/parsers/etree/context.py"])
p("C63","Comments and namespaces do not matter in request documents",
"Two request documents that differ only in comments or in the namespaces of their elements are both rejected or give requests with the same subjects, resources, action and environment attributes.",
"every element tree and every position of a comment","all trees and positions",["ndg/xacml/parsers/etree/context.py","ndg/xacml/utils/etree.py:QName"])
p("C64","A policy means what the XACML semantics says",
"For every complete policy or policy set (every combining algorithm and effect set), every request whose context handler answers by the query alone, and after any history of the process, PDP.evaluate returns one result with status ok and the one decision that a big-step semantics without state, exceptions or evaluation order assigns to the policy; functions, expressions, targets and rules likewise return a value exactly when the semantics gives it.",
"every policy tree, request, context handler, attribute selector, regular expression engine, logging level and process history","unbounded policy trees, requests and histories",["ndg/xacml/core/policybase.py:PolicyBase.evaluate","ndg/xacml/core/rule.py:Rule.evaluate","ndg/xacml/core/target.py:Target.match","ndg/xacml/core/match.py","ndg/xacml/core/apply.py","ndg/xacml/core/functions","ndg/xacml/core/context/pdp.py:PDP.evaluate"])
p("C65","Policies are loaded only from policy documents, by every entry point alike",
"Loading with an object that is not a policy finder raises TypeError and changes nothing; an unparsable source raises the parser's error and changes nothing; only Policy and PolicySet documents load, giving a policy and a policy set; Policy.fromSource, PolicySet.fromSource, PolicyBase.fromSource and PDP.fromPolicySource agree, for file names, file objects and elements alike.",
"every document, finder state, source and PDP","all documents and finder states",["ndg/xacml/core/policybase.py:PolicyBase.fromSource","ndg/xacml/core/policy.py:Policy.fromSource","ndg/xacml/core/policyset.py:PolicySet.fromSource","ndg/xacml/core/context/pdp.py:PDP.fromPolicySource","ndg/xacml/finder/defaultfinder.py:getDefaultPolicyFinder"])
p("C66","From documents to the decision",
"A PDP created from a policy document answers a request document, after any history, with a response document whose one decision is the one the semantics assigns to the policy described by the policy document, references resolved, and the request described by the request document; anything that is not a request document is rejected.",
"every policy document, set of referenced documents, request document, context handler and history","all documents and histories",["ndg/xacml/core/context/pdp.py","ndg/xacml/parsers/etree/context.py","ndg/xacml/parsers/etree/policyreader.py","ndg/xacml/parsers/etree/policysetreader.py"])
p("C67","Namespaces and comments never change a response",
"A service that loads a policy document and answers a request document gives the same response document when the namespaces of the elements of either document, or of documents they refer to, or comments in them, are changed.",
"every policy document, request document, set of fetched documents and position of a comment","all documents and positions",["ndg/xacml/utils/etree.py:QName","ndg/xacml/parsers/etree","ndg/xacml/core/context/pdp.py"])
p("C68","Decisions depend only on what the policy names",
"Two requests that look the same through every attribute designator and selector of a policy get the same response; in particular attributes that no designator of the policy names can be added, removed or changed, and without a context handler it does not matter how attributes are distributed over subjects or resources or which category a subject has.",
"every policy tree, every pair of requests, every environment and process state","unbounded policies and requests, all pairs of requests",["ndg/xacml/core/attributedesignator.py","ndg/xacml/core/attributeselector.py","ndg/xacml/core/policybase.py:PolicyBase.evaluate","ndg/xacml/core/context/subject.py"])
p("C69","Labels never influence decisions",
"Identifiers, versions, descriptions, XPath versions and obligations of rules, policies and policy sets, at any depth, have no influence on the response to any request.",
"every pair of policy trees differing only in labels, every request and process state","unbounded policy trees",["ndg/xacml/core/policybase.py:PolicyBase.evaluate","ndg/xacml/core/rule.py:Rule.evaluate","ndg/xacml/core/context/pdp.py:PDP.evaluate"])
p("C70","Adding Deny rules never grants, adding Permit rules never revokes",
"Adding rules with effect Deny anywhere in a tree of policies and policy sets leaves the decision for a request as it was or makes it Deny or Indeterminate; adding rules with effect Permit leaves it as it was or makes it Permit or Indeterminate.",
"every complete policy tree, every set of added rules and positions, every request, stateless context handler and history","unbounded policy trees and insertions",["ndg/xacml/core/rule_combining_alg.py","ndg/xacml/core/policy_combining_alg.py","ndg/xacml/core/rule.py:Rule.evaluate"])
p("C71","Attribute selectors pick the elements their path names",
"With the supplied ElementTree selector, an AttributeSelector whose path consists of /name, /*, //name, //*, /. and /.. steps with predicates (attributes, children, text, positions) yields one value of its data type for each element of the request document that the path names, each once and in document order.",
"every request document, every such path of any length with any number of predicates, every data type","documents and paths of any size; nested // steps, empty elements and non-string types",["ndg/xacml/utils/xpath_selector.py:EtreeXPathSelector.selectText","ndg/xacml/core/attributeselector.py:AttributeSelector.evaluate"])
p("C72","A function identifier gets the function it names or none",
"Looking up a function identifier for which nothing was registered gives a function of the package only if the identifier is one of the standard's identifiers for exactly that function (family and type); all other identifiers are refused or marked as not implemented.",
"every string used as function identifier, after every history of lookups, registrations and deletions","the identifier is cut at colons and hyphens, re-cased and turned into a Python module path, so infinitely many misspelt identifiers reach the loader",["ndg/xacml/core/functions/__init__.py:FunctionMap.loadFunction","ndg/xacml/core/functions/__init__.py:FunctionClassFactoryBase.__call__"])
p("C73","Requests decided at the same time do not influence each other",
"When several threads have requests decided by one PDP at the same time, and policies are replaced meanwhile, each request gets exactly the response (or exception) it gets when it is decided alone under the policy in force when its evaluation began; every evaluation finishes if its thread keeps being scheduled, and later requests are not affected.",
"every environment, policies, number of threads, requests with stateless PIPs, and every interleaving of their steps and of policy replacements, after every history","a test runs one interleaving it cannot choose, while the evaluator shares a regular expression cache and a mutable policy attribute between all threads",["ndg/xacml/core/context/pdp.py:PDP.evaluate","ndg/xacml/core/functions/v1/regexp_match.py:RegexpMatchBase.evaluate","ndg/xacml/core/policy.py:Policy.evaluate","ndg/xacml/core/policyset.py:PolicySet.evaluate"])
p("C74","The function map can be used by several threads",
"Lookups of function identifiers by several threads, while functions are registered by others, give what they give one after the other: a lookup of an identifier nobody registers is not influenced, standard identifiers always give the standard function, and once a registration has returned every lookup that starts afterwards gives the registered function. No call waits for another.",
"every set of lookups and registrations, every interleaving of their accesses to the map, after every history","the map is filled lazily by check, import and store without a lock, so the result depends on interleavings a test cannot force",["ndg/xacml/core/functions/__init__.py:FunctionMap.loadFunction","ndg/xacml/core/functions/__init__.py:FunctionMap.get","ndg/xacml/core/functions/__init__.py:FunctionMap.load_custom_function"])
p("C75","Requests, responses and policies can be copied and pickled",
"copy.copy, copy.deepcopy and a round trip through pickle give, for every request, response and policy, an object from which a program reads everything it reads from the original: subjects, resources, attributes and their values, decisions, status codes, obligations, rules.",
"every request, response and policy tree, whatever its size and contents","the classes define __getstate__ and __slots__ piecemeal, so what survives depends on which parts an object has; a test copies the objects it thought of",["ndg/xacml/core/__init__.py:XacmlCoreBase.__getstate__","ndg/xacml/core/context/__init__.py:XacmlContextBase.__setstate__","ndg/xacml/core/context/request.py:Request.__getstate__","ndg/xacml/core/attribute.py:Attribute.__getstate__","ndg/xacml/core/context/result.py:Result.__getstate__","ndg/xacml/utils/__init__.py:TypedList.append"])
p("C76","Pretty printing keeps the document",
"prettyPrint returns, for every element tree and every indentation by white space, an XML document (after the indentation) that a parser reads as the same tree: the same tags and namespaces, the same attributes, the same texts apart from white space around them. The registry of namespace prefixes is afterwards what it was before.",
"every element tree and every registry of namespace prefixes; the property compares the tree with what XML's grammar and the namespace rules say about the printed characters","the printed text depends on names, values, nesting and on a process-wide registry of prefixes; a test looks at the documents it has",["ndg/xacml/utils/etree.py:prettyPrint","ndg/xacml/utils/etree.py:_PrettyPrint","ndg/xacml/parsers/etree/__init__.py:QName"])
p("C77","Reading policies leaves the prefixes for writing XML alone",
"Reading policies, whether it succeeds or fails, does not change which namespace prefixes the program's other XML is written with: once the readers are gone, ElementTree's registry of prefixes is what it would be had no policy been read, and while they exist documents are printed as without them.",
"every history of readers being created and deleted, in any order and overlap, and of prefixes being registered in between","readers are deleted when the garbage collector or an exception's traceback lets them go, so their order depends on the rest of the program; a test sees one order",["ndg/xacml/parsers/etree/reader.py:ETreeAbstractReader.__init__","ndg/xacml/parsers/etree/reader.py:ETreeAbstractReader.__del__","ndg/xacml/parsers/etree/__init__.py:makeEtreeElement","ndg/xacml/utils/etree.py:prettyPrint"])
p("C78","Objects are found by their dotted names",
"importModuleObject returns, for a module's name and an object's name given separately, joined by a dot or joined by a colon, the object of that name in that module, and nothing else; a missing module raises the import's exception, a missing object AttributeError, an object that is not a subclass of the expected type is refused.",
"every Python installation (modules and their contents), search path, module and object name","names are cut at the last dot or at the colon and resolved step by step through packages, so the outcome depends on what is installed and on every part of the name",["ndg/xacml/utils/factory.py:importModuleObject"])
p("C79","Calling an object by name leaves the module search path alone",
"callModuleObject searches the given directory for the module and, however the call ends, afterwards sys.path is what it was.",
"every history of calls, with every installation, search path, directory and callee, whether they succeed or raise","a leak shows only in what later imports find; the history is unbounded",["ndg/xacml/utils/factory.py:callModuleObject"])
p("C80","Each element type gets its own reader",
"ReaderFactory.getReader returns for a type the reader last registered for it, else the package's reader for that type; different types of the package get different readers and every type of the package has one.",
"every type, every history of registrations, accepted or refused, every installation","the reader is inferred from the type's bare name; types come from other packages",["ndg/xacml/parsers/etree/factory.py:ReaderFactory.getReader"])
p("C81","Decisions and effects are compared by value",
"A decision or effect always has one of the values of its vocabulary; it equals another one of its kind, or a string of the vocabulary, on whichever side of == it stands, exactly if the values are the same, and != is the opposite. An unknown string is an AttributeError, an operand of another type a TypeError; the predefined decisions and effects cannot be changed.",
"every instance after every history of assignments, every operand on either side","histories of assignments are unbounded, and operands may be any object",["ndg/xacml/core/context/result.py:Decision","ndg/xacml/core/rule.py:Effect","ndg/xacml/core/obligation.py:Effect"])
p("C82","Attributes hold the last suitable value assigned to them",
"Every attribute of policies, rules, matches, requests, results and the other objects can be read at any time; it holds the last value of its documented type that was assigned to it, and None or its default before; values of other types are refused with TypeError and change nothing, and assignments to other attributes and objects have no influence (except that a match has a designator or a selector).",
"every attribute with a setter, every history of assignments of any values to any number of objects","sixty setters, each with its own type test and slot, and unbounded histories",["ndg/xacml/core/__init__.py:XacmlCoreBase","ndg/xacml/core/rule.py:Rule","ndg/xacml/core/match.py:MatchBase","ndg/xacml/core/policy.py:Policy","ndg/xacml/core/policyset.py:PolicySet","ndg/xacml/core/context/result.py:StatusCode","ndg/xacml/core/context/request.py:Request"])
p("C83","Created results and error responses contain what they were created with",
"Result.createInitialised gives, for arguments of the documented types and no others, a result with the given decision, resource id, obligations, status code, message and detail; the response of an XacmlContextError says Indeterminate, has the error's message and a status code for an error.",
"every combination of arguments","arguments may be any object",["ndg/xacml/core/context/result.py:Result.createInitialised","ndg/xacml/core/context/result.py:Status.createInitialised","ndg/xacml/core/context/exceptions.py:XacmlContextError.__init__"])
p("C84","Documents are fetched directly from the hosts in no_proxy",
"A policy document given by URL is opened with proxies turned off exactly if the host in the URL, compared without regard to case, is an entry of the comma-separated environment variable no_proxy, whatever user, port, path, query and fragment the URL has; fetch_data_from_url returns what the server sends and always closes the connection; an error status of the server raises an exception with its text.",
"every URL with a host, every value of no_proxy, every behaviour of the network","all URLs and lists of hosts; failures at every point",
["ndg/xacml/utils/urlfetcher.py:open_url","ndg/xacml/utils/urlfetcher.py:_should_use_proxy","ndg/xacml/utils/urlfetcher.py:fetch_data_from_url","ndg/xacml/utils/urlfetcher.py:fetch_stream_from_url"])
p("C85","All modules use the same XML library",
"Modules of the package loaded in one process all get the same XML library, the one Config.use_lxml names afterwards: the one chosen in Config.use_lxml before the first is loaded, otherwise lxml if it can be imported and the standard library's ElementTree if not; a module that cannot get the library chosen fails to load.",
"every history of loading modules and of lxml becoming available or unavailable","histories",
["ndg/xacml/__init__.py:importElementTree","ndg/xacml/__init__.py:Config"])
p("C86","The context handler is asked only what the policy needs",
"While a request is decided, every query to the context handler is about this request and a subject attribute that the policy designates; the queries come in the order in which the policy designates these attributes, at most one per designator and subject. As soon as a rule or policy settles the decision of its combining algorithm nothing that follows it is evaluated or asked for.",
"every policy tree, request, context handler and process history","the number and order of queries depend on unbounded policy trees and on failures at any point",["ndg/xacml/core/attributedesignator.py:SubjectAttributeDesignator.evaluate","ndg/xacml/core/rule_combining_alg.py","ndg/xacml/core/policy_combining_alg.py","ndg/xacml/core/policybase.py:PolicyBase.evaluate"])
p("C87","Regrouping policies does not change decisions",
"Moving policies of a policy set into a nested policy set without target and with the same combining algorithm, or out of it, changes neither the decision nor the queries made; likewise splitting a policy without target into two policies with the same combining algorithm within a policy set with that algorithm.",
"every policy set, every group of neighbouring policies or rules, every request, context handler and history","unbounded policy trees and groupings",["ndg/xacml/core/policy_combining_alg.py","ndg/xacml/core/rule_combining_alg.py","ndg/xacml/core/policybase.py:PolicyBase.evaluate"])
p("C88","What is sent as pretty-printed text arrives",
"A request written as an element tree, pretty printed, parsed and read is the same request, and likewise a response. So a client and a server that exchange pretty-printed text agree: the client reads the decision that the server's policy gives for the request the client wrote.",
"every request and response, every registry of prefixes, every policy document, context handler and history of the server","unbounded requests, values over all characters, every state of the registry of prefixes",["ndg/xacml/utils/etree.py:prettyPrint","ndg/xacml/parsers/etree/context.py:RequestElementTree","ndg/xacml/parsers/etree/context.py:ResponseElementTree","ndg/xacml/core/context/pdp.py:PDP.evaluate"])
p("C89","The layout of a request document does not matter to attribute selectors",
"A program that reads a request document, puts an attribute selector on its element and decides gives the same answer however the document is laid out: white space between elements does not matter. So with selectors, too, a client that sends its request as pretty-printed text reads the decision that the policy has for the request as it was written.",
"every request document and layout, every policy with selectors, every path of the ElementPath language, every registry of prefixes, context handler and history","unbounded documents, paths, policies and layouts",["ndg/xacml/utils/xpath_selector.py:EtreeXPathSelector.selectText","ndg/xacml/core/attributeselector.py:AttributeSelector.evaluate","ndg/xacml/parsers/etree/context.py:RequestElementTree","ndg/xacml/utils/etree.py:prettyPrint"])
p("C90","Attribute selectors and attribute designators agree",
"A selector whose path spells out what a designator asks for (part of the request, attribute id, data type, issuer) gives the bag the designator gives, with the same values in the same order, or the same error. A policy in which designators are spelt out as paths gives the same answer to every request document, and to every request that a program makes and writes as an element.",
"every request document or request, every policy, every set of its designators, every attribute id, data type and issuer","unbounded documents, policies, and strings for ids, types and issuers",["ndg/xacml/core/attributedesignator.py:AttributeDesignator.evaluate","ndg/xacml/core/attributeselector.py:AttributeSelector.evaluate","ndg/xacml/utils/xpath_selector.py:EtreeXPathSelector.selectText","ndg/xacml/parsers/etree/context.py:RequestElementTree","ndg/xacml/core/context/pdp.py:PDP.evaluate"])
p("C91","Failures never grant",
"Whatever fails while a request is decided - the context handler, the XPath selector or the regular expression compiler raising whenever they are called, RecursionError, MemoryError, errors of logging handlers or KeyboardInterrupt at any point - if a response comes back its decision is the one that would have been given without failures, or Deny or Indeterminate. So failures never bring about a Permit or a NotApplicable. A single policy never turns failures into Deny either. Failures leave nothing behind that would change later decisions.",
"every policy tree, request, set of points at which exceptions are raised, failing context handler, engine and compiler, and process history","exceptions can arise at every point of an evaluation of unbounded size, in any combination",["ndg/xacml/core/rule.py:Rule.evaluate","ndg/xacml/core/policybase.py:PolicyBase.evaluate","ndg/xacml/core/policybase.py:PolicyBase.evaluateResponse","ndg/xacml/core/rule_combining_alg.py","ndg/xacml/core/policy_combining_alg.py","ndg/xacml/core/attributedesignator.py","ndg/xacml/core/functions/v1/regexp_match.py:RegexpMatchBase.evaluate"])
p("C92","The order of a request does not matter",
"Listing the subjects, the resources, the attributes and the attribute values of a request in another order does not change the response.",
"every policy tree, request, reordering of it at all levels, context handler, set of custom functions that do not themselves look at order, and process history","the orders of a request of unbounded size are too many to try, and match functions, bag functions, failing values and the context handler all see the values one after the other",["ndg/xacml/core/attributedesignator.py:SubjectAttributeDesignator.evaluate","ndg/xacml/core/match.py:MatchBase.evaluate","ndg/xacml/core/functions/v1/at_least_one_member_of.py","ndg/xacml/core/functions/v1/one_and_only.py","ndg/xacml/core/context/pdp.py:PDP.evaluate"])
p("C93","The order within targets does not matter",
"Listing the entries of a target's sections, or the match elements of an entry, in another order does not change whether the target matches, does not match or fails. So it does not change the response, at any depth of a policy, and neither does reordering the rules and policies below deny-overrides and permit-overrides at the same time.",
"every policy tree, reordering of it, request and process history","targets contain any number of entries and match elements, each of which can be true, false or fail",["ndg/xacml/core/target.py:Target.match","ndg/xacml/core/target.py:Target._matchChild","ndg/xacml/core/rule.py:Rule.evaluate","ndg/xacml/core/policybase.py:PolicyBase.evaluate"])
p("C94","Attribute and issuer names are only names",
"Giving attributes and issuers other names - in the policy, the request and the context handler alike, different names to different ones - does not change the response. No attribute name has a special meaning to the PDP.",
"every one-to-one renaming, policy tree, request, context handler and process history","there are infinitely many names",["ndg/xacml/core/attributedesignator.py","ndg/xacml/core/context/attribute.py:Attribute","ndg/xacml/core/context/pdp.py:PDP.evaluate"])
p("C95","Extending the package does not disturb what worked before",
"Registering classes and readers for further data types and further functions, at any time, changes nothing for policies, requests and services that worked before: what could be read is read as before, the same documents are fetched, and every request gets the same response with the same effects. (Registering without overwrite never replaces a class.)",
"every history of registrations, deletions and lookups, every sequence of additions after it, every policy document with its references, request document, policy tree, request and process state","histories, registrations and documents are unbounded; tests register one class and look at it",["ndg/xacml/core/attributevalue.py:AttributeValueClassFactory.addClass","ndg/xacml/parsers/etree/attributevaluereader.py:DataTypeReaderClassFactory.addReader","ndg/xacml/core/functions/__init__.py:FunctionMap.load_custom_function"])
p("C96","A class registered with overwrite is used from then on",
"After a class for a data type was registered with overwrite, the functions for the data type work on values of the new class, whatever was looked up before.",
"every history of registrations, deletions and lookups and every function for a data type","depends on the order of all calls made in the process before",["ndg/xacml/core/attributevalue.py:AttributeValueClassFactory.addClass","ndg/xacml/core/functions/__init__.py:FunctionMap.loadFunction","ndg/xacml/core/functions/__init__.py:FunctionClassFactoryBase"])
p("C97","A policy is assembled from one version of each document",
"If documents are edited while a policy with references is loaded, the policy that results (if loading succeeds) is one that could have been loaded from documents that do not change: no document is used in two versions.",
"every policy document with its references, every way documents can change between fetches, every recursion limit and history of the finder","the change has to fall between two fetches of one load",["ndg/xacml/finder/urlpolicyfinder.py:URLPolicyFinder","ndg/xacml/finder/policyfinderbase.py:PolicyFinderBase","ndg/xacml/core/context/pdp.py:PDP.fromPolicySource"])
p("C98","Threads can print documents at the same time",
"A document that is pretty-printed while other threads print, write and read other documents comes out as if it was printed alone: an XML document that says the same. Afterwards the registry of namespace prefixes is as it was.",
"every set of documents, threads, initial registry of prefixes and schedule","the result depends on the moment another thread puts the registry back",["ndg/xacml/utils/etree.py:prettyPrint","ndg/xacml/utils/etree.py:_PrettyPrint","ndg/xacml/parsers/etree/__init__.py:makeEtreeElement","ndg/xacml/parsers/etree/reader.py:ETreeAbstractReader"])
p("C99","Qualified names are equal if they name the same thing",
"Qualified names made of a namespace and a local name, or of text {namespace}local, are equal exactly if namespace and local name are the same, whatever their prefixes; equality is an equivalence relation, agrees with the text by which names stand in documents and with their order, and equal names can be used as the same dictionary key.",
"every pair of names, way of making them and history of assignments to their properties","infinitely many texts, namespaces and histories",["ndg/xacml/parsers/etree/__init__.py:QName"])
p("C100","Data types can be registered while requests are decided",
"When a thread registers a data type while others have requests decided, each request is decided as with the classes registered when its evaluation began, or as with those registered when it ended, never with a mixture; registrations of types that the policy does not use change nothing, none is lost, and a request whose evaluation begins afterwards is decided with the new class.",
"every policy, number of threads and requests with stateless PIPs, every interleaving of their steps with policy replacements and registrations, after every history","the window between two lookups of one evaluation is not reached by tests, and whether it matters depends on the policy",["ndg/xacml/core/attributevalue.py:AttributeValueClassFactory.addClass","ndg/xacml/core/attributevalue.py:AttributeValueClassFactory.__call__","ndg/xacml/core/attributeselector.py:AttributeSelector.evaluate","ndg/xacml/core/attributedesignator.py:SubjectAttributeDesignator.evaluate","ndg/xacml/core/context/pdp.py:PDP.evaluate"])
p("C101","Targets can be moved between a policy and its rules",
"A target of a policy (or policy set) can be written into the targets of all its rules (or child policies) instead, and a target common to all of them can be written once at the top, without changing any decision, as long as the two targets restrict different sections, there is a rule, and no target fails; if one fails, writing the target into the rules only turns NotApplicable into Indeterminate or, in a deny-overrides policy set, NotApplicable or Indeterminate into Deny.",
"every policy or policy set, target, request, position of failures, combining algorithm and history","infinitely many policies and requests, each rewritten",["ndg/xacml/core/target.py:Target.match","ndg/xacml/core/rule.py:Rule.evaluate","ndg/xacml/core/policybase.py:PolicyBase.evaluate"])
p("C102","Alternatives can be written as several rules",
"A rule (or policy) whose target lists several alternatives for subjects, resources, actions or environments can be written as two rules (policies) side by side that list some of the alternatives each, and the other way round, without changing any decision, as long as no alternative fails; if one fails, the joint form never grants what the separate form does not.",
"every list of alternatives and way to part it, section, place among other rules or policies, combining algorithm, request and history","infinitely many policies and requests, each rewritten",["ndg/xacml/core/target.py:Target.match","ndg/xacml/core/rule_combining_alg.py","ndg/xacml/core/policy_combining_alg.py"])
p("C103","Functions reject arguments with the exceptions of XACML contexts",
"A standard function called with the right number of arguments, some of them not of the types it is for, raises XacmlContextError or its subclass XacmlContextTypeError; with a wrong number of arguments it raises TypeError; which exception is raised depends only on the arguments and not on earlier evaluations.",
"every standard function, every list of arguments and every earlier history of evaluations","infinitely many argument lists and histories; the cache of regular expressions is shared by all evaluations",["ndg/xacml/core/functions/v1/equal.py:EqualBase.evaluate","ndg/xacml/core/functions/v1/one_and_only.py:OneAndOnlyBase.evaluate","ndg/xacml/core/functions/v1/regexp_match.py:RegexpMatchBase.evaluate","ndg/xacml/core/functions/v1/round.py:Round.evaluate","ndg/xacml/core/functions/v2/concatenate.py:ConcatenateBase.evaluate"])
p("C104","More attributes never revoke what was granted for having attributes",
"If all rules of a policy or policy set have the same effect and only look for attribute values (matches, common members of bags, and), then adding subjects, resources, attributes or attribute values to a request never changes a decision that was that effect, as long as the larger request has what the policy requires to be present and its values are of the types they say; the larger request gets the effect or NotApplicable.",
"every such policy tree, every pair of requests of which one says more than the other, every histories of evaluations","infinitely many policies, requests and extensions of requests",["ndg/xacml/core/target.py:Target.match","ndg/xacml/core/attributedesignator.py:SubjectAttributeDesignator.evaluate","ndg/xacml/core/functions/v1/at_least_one_member_of.py:AtLeastOneMemberOfBase.evaluate","ndg/xacml/core/rule_combining_alg.py","ndg/xacml/core/policy_combining_alg.py"])
p("C105","Attribute values are only compared, no value is special",
"If values are replaced by other ones of the same type, equal ones by equal ones and different ones by different ones, everywhere - in the policy, the request, the answers of the context handler and the texts that XPath finds - then a policy whose functions only compare, collect and count values gives the same response, and asks the context handler the same questions in the new values. In particular values that the policy does not mention are interchangeable: two users it does not name are treated alike.",
"every policy tree without regexp-match, concatenate and custom functions that look into values, every request, context handler (with memory or without) and XPath result, every one-to-one replacement of values","infinitely many values and replacements; a special case for one value among all is not found by trying some",["ndg/xacml/core/functions/v1/equal.py:EqualBase.evaluate","ndg/xacml/core/functions/v1/match.py:MatchBase.evaluate","ndg/xacml/core/functions/v1/at_least_one_member_of.py:AtLeastOneMemberOfBase.evaluate","ndg/xacml/core/attributevalue.py:AttributeValue.__eq__","ndg/xacml/core/attributedesignator.py","ndg/xacml/core/attributeselector.py:AttributeSelector.evaluate","ndg/xacml/core/match.py:MatchBase.evaluate"])
p("C106","A policy document that cannot be used is reported by an XMLParseError",
"Reading a document that is not a usable policy or policy set raises an XMLParseError, which a caller can handle; nothing else is raised.",
"every document (any tree of elements, depth and size), every finder, every set of registered functions, attribute value classes and readers","documents can be wrong in unboundedly many ways and places; an error path that raises something else shows only for the document that takes it",["ndg/xacml/parsers/etree/policyreader.py:PolicyReader.processElement","ndg/xacml/parsers/etree/policysetreader.py:PolicySetReader.processElement","ndg/xacml/parsers/etree/rulereader.py","ndg/xacml/parsers/etree/matchreader.py","ndg/xacml/parsers/etree/conditionreader.py","ndg/xacml/parsers/etree/applyreader.py","ndg/xacml/finder/urlpolicyfinder.py:UrlPolicyFinder"])
p("C107","A request or response document that cannot be used is reported by an XMLParseError",
"Reading a document that is not a request (or response) raises an XMLParseError, so that a service can answer a client who sent it; nothing else is raised.",
"every document (any tree of elements), every registry of attribute value classes, every XML library","clients send unboundedly many kinds of wrong documents",["ndg/xacml/parsers/etree/context.py:RequestElementTree.fromXML","ndg/xacml/parsers/etree/context.py:AttributeElementTree.fromXML","ndg/xacml/parsers/etree/context.py:ResponseElementTree.fromXML","ndg/xacml/parsers/etree/context.py:DecisionElementTree.fromXML"])
p("C108","Permit and Deny are treated alike",
"Exchanging Permit and Deny in the effects of all rules and deny-overrides with permit-overrides in all combining algorithms exchanges Permit and Deny in the response to every request and changes nothing else.",
"every policy and policy set of any size and depth, every request, context handler and history","the two override algorithms are separate code for rules and for policies, and an asymmetry shows only for particular mixtures of decisions",["ndg/xacml/core/rule_combining_alg.py:DenyOverridesRuleCombiningAlg.evaluate","ndg/xacml/core/rule_combining_alg.py:PermitOverridesRuleCombiningAlg.evaluate","ndg/xacml/core/policy_combining_alg.py:DenyOverridesPolicyCombiningAlg.evaluate","ndg/xacml/core/policy_combining_alg.py:PermitOverridesPolicyCombiningAlg.evaluate","ndg/xacml/core/rule.py:Rule.evaluate"])
p("C109","Saying something again does not change decisions",
"Repeating or merging equal rules or policies, also in another order, under an override algorithm, and adding or dropping later repetitions under first-applicable, anywhere inside a policy set, changes no response, if the context handler answers equal questions equally.",
"every policy set of any size and depth, any number of such changes in it, every request and history","a policy can repeat itself in unboundedly many ways",["ndg/xacml/core/rule_combining_alg.py:DenyOverridesRuleCombiningAlg.evaluate","ndg/xacml/core/rule_combining_alg.py:FirstApplicableRuleCombiningAlg.evaluate","ndg/xacml/core/policy_combining_alg.py:DenyOverridesPolicyCombiningAlg.evaluate","ndg/xacml/core/policy_combining_alg.py:PermitOverridesPolicyCombiningAlg.evaluate","ndg/xacml/core/policybase.py:PolicyBase.evaluate"])
p("C110","Restricting Permit rules never grants",
"Adding conditions to Permit rules without one and narrowing the targets of Permit rules (new sections, more match elements in an alternative), anywhere inside a policy or policy set, never turns a decision into Permit: a decision other than Permit stays as it is or becomes Deny or Indeterminate, if the context handler answers equal questions equally.",
"every policy set of any size and depth, any number of restricted Permit rules in it, every request and history","there are unboundedly many policies, places and ways to restrict a rule",["ndg/xacml/core/rule.py:Rule.evaluate","ndg/xacml/core/target.py:Target.match","ndg/xacml/core/rule_combining_alg.py:DenyOverridesRuleCombiningAlg.evaluate","ndg/xacml/core/policy_combining_alg.py:DenyOverridesPolicyCombiningAlg.evaluate","ndg/xacml/core/policybase.py:PolicyBase.evaluate"])
p("C111","Widening Deny rules never grants",
"Dropping conditions of Deny rules and widening their targets (dropping sections, or match elements of alternatives), anywhere inside a policy or policy set, never turns a decision into Permit: a decision other than Permit stays as it is or becomes Deny or Indeterminate, if the context handler answers equal questions equally.",
"every policy set of any size and depth, any number of widened Deny rules in it, every request and history","there are unboundedly many policies, places and ways to widen a rule",["ndg/xacml/core/rule.py:Rule.evaluate","ndg/xacml/core/target.py:Target.match","ndg/xacml/core/rule_combining_alg.py:DenyOverridesRuleCombiningAlg.evaluate","ndg/xacml/core/policy_combining_alg.py:DenyOverridesPolicyCombiningAlg.evaluate","ndg/xacml/core/policybase.py:PolicyBase.evaluate"])
p("C112","Conditions can be rewritten with boolean algebra",
"Reordering, repeating, nesting and flattening the arguments of and, dropping an and of one boolean argument, dropping a double negation of a boolean expression, and swapping the arguments of <type>-equal and <type>-at-least-one-member-of, anywhere inside expressions and in conditions anywhere in a policy or policy set, changes no response and not when evaluation fails, if the context handler answers equal questions equally.",
"every expression of any size and depth, every policy set, any number of such steps in it, every request and history","there are unboundedly many expressions and ways to rewrite them",["ndg/xacml/core/functions/v1/and.py:And.evaluate","ndg/xacml/core/functions/v1/not.py:Not.evaluate","ndg/xacml/core/functions/v1/equal.py:EqualBase.evaluate","ndg/xacml/core/functions/v1/at_least_one_member_of.py:AtLeastOneMemberOfBase.evaluate","ndg/xacml/core/apply.py:Apply.evaluate","ndg/xacml/core/condition.py:Condition.evaluate"])
p("C113","Targets can be written as conditions",
"A rule without condition whose target has no alternatives and compares with <type>-equal, the value and the designators or selectors having that type, decides like the rule without target whose condition is the and of <type>-at-least-one-member-of(<type>-bag(value), designator or selector): exchanging such rules anywhere in a policy or policy set, in both directions, changes no response, if the context handler answers equal questions equally.",
"every target of any size, every policy set, any number of rules exchanged in it, every request and history","there are unboundedly many targets, policies and requests, including those for which evaluation fails",["ndg/xacml/core/target.py:Target.match","ndg/xacml/core/match.py:MatchBase.evaluate","ndg/xacml/core/rule.py:Rule.evaluate","ndg/xacml/core/functions/v1/bag.py:BagBase.evaluate","ndg/xacml/core/functions/v1/at_least_one_member_of.py:AtLeastOneMemberOfBase.evaluate","ndg/xacml/core/functions/v1/and.py:And.evaluate"])
p("C114","Targets are formulas",
"Two targets that contain the same match elements and are logically equivalent, each section being the disjunction of its entries (true if there are none) and each entry the conjunction of its match elements, match alike: both match, neither does or both fail. So entries and match elements can be repeated, merged, absorbed, factored out and distributed in targets anywhere in a policy or policy set without changing a response, if the context handler answers equal questions equally.",
"every pair of such targets of any size, every policy set of any depth with any number of its targets so exchanged, every request and history","there are unboundedly many formulas, and for each of them the truth values and failures of all its match elements",["ndg/xacml/core/target.py:Target.match","ndg/xacml/core/target.py:Target._matchChild","ndg/xacml/core/match.py:MatchBase.evaluate","ndg/xacml/core/rule.py:Rule.evaluate","ndg/xacml/core/policybase.py:PolicyBase.evaluate"])
p("C115","A default decision fills the gaps and nothing else",
"Appending a rule without target and condition to a policy, or a policy with just such a rule to a policy set, under first-applicable or under the overrides algorithm of the other effect, changes a decision only to the effect of that rule, and only if the decision was NotApplicable or, under an overrides algorithm, Indeterminate. Every request the target matches then gets a decision other than NotApplicable, and nothing changes for the others. A policy set that contains, below no target, a rule for every request at any depth never answers NotApplicable, whatever its combining algorithms are.",
"every policy and policy set of any size and depth, either effect, every request and history","default rules are relied on for the requests nobody thought of",["ndg/xacml/core/rule_combining_alg.py:FirstApplicableRuleCombiningAlg.evaluate","ndg/xacml/core/rule_combining_alg.py:PermitOverridesRuleCombiningAlg.evaluate","ndg/xacml/core/rule_combining_alg.py:DenyOverridesRuleCombiningAlg.evaluate","ndg/xacml/core/policy_combining_alg.py:PermitOverridesPolicyCombiningAlg.evaluate","ndg/xacml/core/rule.py:Rule.evaluate","ndg/xacml/core/policybase.py:PolicyBase.evaluate"])
p("C116","A request is a collection of facts",
"Two requests whose subjects, resources, action and environment say the same - the same attribute identifiers, data types, issuers and values, as often - get the same response, however the values are grouped into attributes: an attribute with several values is as good as several attributes with one value each, and attributes without values do not matter. This holds for requests without context handler, and with a context handler that answers alike for requests that say the same of each subject.",
"every policy tree, every pair of such requests of any size, every process history","values can be grouped in unboundedly many ways",["ndg/xacml/core/attributedesignator.py","ndg/xacml/core/context/attribute.py:Attribute","ndg/xacml/core/context/request.py:Request","ndg/xacml/core/match.py:MatchBase.evaluate","ndg/xacml/core/context/pdp.py:PDP.evaluate"])
p("C117","Rules that can have no influence can be dropped",
"Under first-applicable, what follows a rule or policy that has its effect for every request can be dropped; under deny-overrides, everything beside a rule or policy that always denies, and under permit-overrides everything beside one that always permits. No response changes, wherever in the policy and however often this is done, and even if what is dropped cannot be evaluated. A policy or policy set without target in which such a rule comes first, or prevails, gives its effect to every request.",
"every policy tree of any size and depth, every request, every process history","policies, what is dropped from them and requests are unbounded",["ndg/xacml/core/rule_combining_alg.py","ndg/xacml/core/policy_combining_alg.py","ndg/xacml/core/policy.py:Policy.evaluate","ndg/xacml/core/policyset.py:PolicySet.evaluate","ndg/xacml/core/context/pdp.py:PDP.evaluate"])
p("C118","A policy can be cut down to what concerns some requests",
"Leaving out rules, policies and policy sets, anywhere within a policy, that are not applicable to any of a class of requests does not change the response to any request of that class. In particular the policies of a policy set can be preselected by their targets: any selection that leaves out only policies whose targets do not match the request gives the same response. Policies whose targets cannot be evaluated must not be left out.",
"every policy tree of any size and depth, every class of requests, every selection, every process history","policies, classes of requests and selections are unbounded",["ndg/xacml/core/rule_combining_alg.py","ndg/xacml/core/policy_combining_alg.py","ndg/xacml/core/policybase.py:PolicyBase.evaluate","ndg/xacml/core/rule.py:Rule.evaluate","ndg/xacml/core/context/pdp.py:PDP.evaluate"])
with open('/verif/properties.jsonl','w') as f:
    for x in P: f.write(json.dumps(x)+"\n")
print(len(P))
