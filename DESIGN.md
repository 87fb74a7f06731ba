# Formal model of ndg_xacml in Lean 4 — design

## 1. Approach

A shallow Lean 4 model of `/repo/ndg/xacml`, function by function, exceptions as values, side effects as
explicit state. No code is run. Every model definition carries a comment with the file and lines it models;
simplifications are stated in that comment and collected in section 5.

The evaluation monad is `World → Except Exc α × World`: the world survives exceptions, as in Python. It holds
the log of calls to the policy information point (PIP) and the cache of compiled regular expressions.
Everything outside the package (regular expression engine, PIP, lxml's XPath engine,
custom functions, module import, URL fetching, the XML parser) is a parameter that the theorems quantify over.

Layout (all under `lean/Verif/`):

| Module | Contents |
|---|---|
| `Model/Py`, `Model/Str` | Python fragments: exception kinds, native values and `==`, string splitting and joining, dicts |
| `Model/Value` | attribute value classes, attribute values, bags, truth values |
| `Model/Eval` | requests, PIP, the function library, designators, selectors, expressions |
| `Model/Policy` | match, target, rule, combining algorithms, policy, policy set, PDP |
| `Model/DecisionHeap` | the same evaluator with `Decision` objects on a heap, to model the shared mutable constants |
| `Model/Containers` | TypedList, UniqList, VettedDict, RestrictedKeyNamesDict, class registry, value setter |
| `Model/Setters` | setters of policies, matches and applies |
| `Model/FunctionMap` | function map, class factories, module path and type derivation from identifiers |
| `Model/Xml`, `Model/Readers` | element trees; the policy, rule, target, match and expression readers |
| `Model/Finder` | policy finders, policy set reader, references, `fromSource`, `PDP.fromPolicySource` |
| `Model/ContextXml` | request and response readers and writers |
| `Model/XPath` | ElementTree path selection and `EtreeXPathSelector` |
| `Model/Service` | the sequence of calls of a program that answers request documents |
| `Spec/*` | small independent specifications (XACML tables, document grammar, big-step semantics, …) and sample data |
| `Lemmas/*` | helper lemmas |
| `Props/*` | the property theorems, each with a non-vacuity `example` |

Conventions. A property that the code violates keeps its full statement in `properties.jsonl`; there is a
theorem `Cxx_violated…` that exhibits the violation (often for all inputs of a class) and the part that does hold
is proved under the name `Cxx_partial`, `Cxx_…_partial` or a theorem that says exactly what happens instead.

## 2. Per-property plan

| Property | What is modelled and how it is proved |
|---|---|
| C01–C05 | Loops as recursion over a list of child computations; spec = decision table on the list of decisions (`Spec/Combining`); induction on the list; laziness stated by which children were run (`Runs`). |
| C06 | Evaluation as a function into decisions; `PDP.evaluate` always gives one result. Structural induction is not needed: `catchAll` at every level. |
| C07–C10 | Targets and matches; specs with quantifiers (`Spec/Target`). C09: the code never absorbs errors, so witnesses and the error-free part. |
| C11 | Rule: truth value of the condition is specified by `RegardedFalse`; witness for the attribute value `false`. |
| C12 | Induction over the policy tree with an inductive "permit witness". |
| C13–C17, C55, C57 | Designators: recursion over subjects and attributes, spec = filter/flatMap of the request; PIP answers as iterators that may be one-shot. |
| C18 | Apply: the arguments' computations are run in order before the function. |
| C19–C23, C39, C58 | Function library: direct specs; equality of native values specified separately. |
| C24, C25, C59 | Simulation between worlds with coherent regexp caches, over all histories of evaluations. |
| C26, C27 | Permutation and insertion lemmas on decision lists. |
| C28–C30 | Decision heap refines the value model as long as the shared constants are intact; witnesses for aliasing, status and obligations. |
| C31–C33, C60 | Setters as state machines; invariants over histories; witness for non-atomicity. |
| C34–C37 | Function map and class registry as state machines; invariants over histories; the finite table of standard names is checked by the kernel. |
| C38, C40–C43 | Containers: invariants over histories of calls. |
| C44–C47 | Element trees; the readers succeed exactly on the grammar of `Spec/Reader`; normalisation lemmas for comments and namespaces. |
| C48–C50, C53, C56 | Finders with state, references, cyclic documents under any recursion limit. |
| C51, C52, C61–C63 | Request and response documents: exact result of writing then reading; meaning of documents (`Spec/Context`). |
| C54 | Evaluation with a debug flag. |
| C64 | Big-step semantics of the whole policy language (`Spec/Semantics`); the evaluator computes it and it is deterministic. |
| C65 | The entry points that load policies: exact outcome for all arguments. |
| C66, C67 | Composition: policy document + request document → response document, in terms of the grammar and the semantics only. |
| C68, C69 | Two requests that look the same to every designator and selector of the policy, and two policies with the same logic, give the same decisions; by induction through a relational version of the evaluator. |
| C70 | Adding rules: monotonicity by induction over the policy tree; witness for Permit rules under policy deny-overrides. |
| C71 | All of `xml.etree.ElementPath` (tokeniser, compiler, selectors, predicates) and `Element.findall`, compared with CPython 3.11 by `tools/fuzz_elementpath.py`; spec = XPath steps through the tree (`Spec/XPath`); `Lemmas/XPathText` (what is written compiles to the steps) and `Lemmas/XPathSelect` (running them). |
| C72 | Which strings the function map resolves: string lemmas about split and join, then case analysis on the module; converse by finite tables. |
| C73 | The evaluator cut into steps on shared state (`Model/Threads`, `Model/Prog`); a simulation (`Impl`) shows that under any interference that keeps the regexp cache coherent every thread computes the sequential result. |
| C74 | The calls on the function map cut into steps (`Model/MapThreads`); rely/guarantee invariants (`Lemmas/Prog`); witness schedule for the lost registration. |
| C75 | Classes with their `__slots__`, `__getstate__`, `__setstate__`; the steps of `copy` and `pickle` on object trees (`Model/Copying`); list lemmas, then exact outcomes for every request and response. |
| C76 | `prettyPrint` over character lists with the registry as state (`Model/PrettyPrint`); the grammar of XML elements and the namespace rules as a separate specification (`Spec/PrettyPrint`), proved unambiguous; induction over trees. With lxml (`Model/PrettyPrintLxml`) prefixes come from the declarations in scope; printing is shown to be that with a registry made of the declarations. |
| C77 | The registry with the readers' backups as a transition system (`Model/NsRegistry`); induction over histories; printing respects registries that agree on the tree's namespaces (`Lemmas/PrintAgree`). |
| C78, C79 | Import by dotted name over an arbitrary installation (`PyWorld`), `sys.path` as a list object with aliases (`Model/Modules`); lemmas about cutting names, induction over histories of calls. |
| C80 | The reader registry as an association list over registrations, with the inferred name as fallback; finite tables for the package's classes. |
| C81 | Decisions and effects as objects with assignment histories, Python's comparison protocol (`Model/Comparison`); case analysis and induction over histories. |
| C82 | Slots of any number of objects with the setters' type tests (`Model/Attributes`); documented types as tables (`Spec/Attributes`); induction over histories of assignments. |
| C83 | The constructors over arguments of any type (`Model/Creation`); case analysis. |
| C84 | `urlparse(url).hostname`, the search in no_proxy, and what is done to the network (`Model/UrlFetch`); grammar of URLs and of lists (`Spec/UrlFetch`). |
| C85 | `importElementTree` as a function of `Config.use_lxml` (`Model/XmlLibrary`); induction on histories. |
| C86 | Every computation adds a sublist of a given list of queries to the log; composition along the syntax of policies. Spec: designators in document order (`Spec/Queries`). |
| C87 | Equality of evaluations (decision and world); associativity of the combining loops by induction with generalised flags. |
| C88 | Writers, `prettyPrint`, the XML grammar of `Spec/PrettyPrint` and the readers composed; trimming of leaves commutes with writing, readers do not see white space between elements. Spec: `Spec/Sending`. |
| C89 | Element trees with `tail` as readers and selectors see them (`Model/SelectorService`); paths lead to the same positions in documents that differ in layout. Spec: `Spec/Selecting`. |
| C90 | Paths as nested loops over children, matched with the readers' loops; congruence of evaluation for replaced readings. Spec: the path of a designator and the rewriting of policies (`Spec/Agreement`). |
| C91 | Evaluation with numbered points at which a schedule may have an exception raised (`Model/Faults`); a relation between a disturbed and an undisturbed run, carried through all functions and combining algorithms. Spec: failing services and what they may do to a decision (`Spec/Faults`). |
| C92 | Meanings (C64) are carried over between requests that give the same bags up to order (`Lemmas/Transport`); all functions of the package respect order. Spec: reordered requests (`Spec/Reordering`). Violated for several subjects with a context handler (witness). |
| C93 | The semantics of sections is invariant under permutations; reordering of policy trees as a congruence (`Spec/Reordering`). |
| C94 | The same transport between a policy and its renaming (`Spec/Renaming`), with equality of bags. |
| C95 | The three process-wide registries as one state (`Model/Extension`); readers and evaluation are monotone in what the registries offer, proved function by function (`Lemmas/ExtensionReading`, `Lemmas/ExtensionEval`). Spec: calls that only add (`Spec/Extension`). |
| C96 | Invariants of the function map for one identifier (not looked up yet; bound to a class), carried through any history (`Lemmas/Override`). Spec: the class in force (`Spec/Extension`). Violated: functions keep the class of their first use. |
| C97 | A fetch may depend on all fetches before it. Ledger of the kinds and identifiers of fetched documents (`Lemmas/Snapshot`), simulation by a fetch that ignores the past. Violated if a document changes its identifier or kind. |
| C98 | `Model/PrintThreads`: the printer, writers and readers cut into steps on a heap of dictionaries with a current one. Invariant: all dictionaries agree on the namespaces of the document (`Lemmas/PrintThreads`); one thread alone is the printer of C76. Violated for namespaces that are not registered from the start. |
| C99 | `Model/QName`: names as objects with the base class's text and three properties; `re.search` specified by its matches (leftmost, then longest), `rsplit` by the last brace. Violated after assignments (text stays) and for dictionary keys. |
| C100 | The class registry is part of the shared state of `Model/Threads`; each lookup by a designator or selector is a step, a registration is an event of the schedule. The simulation for C73 is relative to the classes a policy asks for (`Ground`), and other threads are only known to do no harm (`Safe`). Violated for types the policy uses. |
| C101 | On the semantics of C64: a joined target with separate sections means the conjunction of both and fails if one of them does; then by cases whether the target at the top is true, false or fails. `Spec/Refactor` defines what is rewritten. |
| C102 | Likewise: alternatives mean a disjunction that fails if one fails; the combining algorithms do not notice a decision that is repeated or accompanied by NotApplicable. |
| C103 | A separate inductive table of rejections (function, arguments, exception); proved to be exactly what evaluation raises: every entry is raised, and arguments without an entry have a meaning by the specification of C19–C23. |
| C104 | Over the semantics of C64: in the larger request nothing fails, and what is true stays true, for matches, sections, targets, bags and conditions, by induction; combining decisions that are the effect or NotApplicable gives the effect if it is among them. |
| C105 | Evaluation commutes with the replacement: by induction over expressions, targets, rules and policies, each computation of the model gives the replaced result of the other one, exceptions and questions to the context handler included. |
| C106 | Violated; the specification lists the flaws of single elements that lead to other exceptions. By induction over documents (and over the nesting of fetched documents) every exception is an XMLParseError or accounted for by a flaw; adding a flawed child to any readable policy raises exactly the exception listed. |
| C107 | As C106, for request and response documents: flaws of Attribute and Decision elements, induction over the document. |
| C108 | Mirror image of a policy defined by recursion in Spec/Mirror.lean; the evaluations of a policy and of its mirror image are related by induction over the policy and, for each algorithm, over its children. |
| C109 | Relation SaysTheSame generated by the allowed changes (Spec/Repeating.lean); induction over it, using that with a stateless context handler each rule and policy has one decision, and the tables of C01-C05. |
| C110 | Relation Restricted (Spec/Restricting.lean); a narrowed target matches less, so a restricted rule keeps its decision or loses its Permit; this goes up through the tables of C01-C05 by structural induction over both trees. |
| C111 | Relation Widened (Spec/Restricting.lean); same induction as for C110, for the decisions a widened Deny rule may change to. |
| C112 | Relation SameExpr generated by the steps (Spec/Conditions.lean); induction over it with the semantics of C64, `and` being characterised by which values occur among its arguments; then structural induction over the policies. |
| C113 | Relation AsCondition (Spec/Conditions.lean); match element and expression are true, false and failing alike, a target without alternatives is the `and` of its match elements; then as for C112. |
| C114 | Targets as propositional formulas over match elements (Spec/Formulas.lean); a target has a truth value exactly if all its match elements have one, and then it is that of the formula; then structural induction over the policies. |
| C115 | Relations WithDefault and HasCatchAll (Spec/Defaults.lean); case analysis of the combining tables with a last effect, and induction over the depth of the rule for every request, on the semantics of C64. |
| C116 | Facts of a request (Spec/Facts.lean); what a designator finds is a filter of the facts, so the requests look alike through every designator, which is what C92 needs. |
| C117 | Policies that always have an effect, and dropping what can have no influence (Spec/DeadRules.lean); by induction over the dropping, through the meaning of policies from C64. |
| C118 | Excerpts of policies for a class of requests (Spec/Excerpts.lean); a meaning of the excerpt is a meaning of the whole policy, by induction over the excerpt, and C64 makes it the response. |

## 3. Trusted base

* Lean 4.33.0's kernel.
* Axioms: at most `propext`, `Classical.choice`, `Quot.sound`. The axioms of each claimed theorem are listed in
  `AXIOMS.md` (generated by `tools/axioms.py` from `#print axioms`). There are no axioms of our own, no `sorry`,
  no `native_decide` and no `bv_decide`. `decide +kernel` is used for finite tables only; it is evaluated by the
  kernel.
* The statements: `Spec/*` and the statements in `Props/*`. They use the model's data types (policies, requests,
  values, element trees), and the model's functions only as the subject of the claim.
* Fidelity of `Model/*` to the Python text, including Python's own behaviour: attribute lookup, `==`, truth values,
  `str.split`, dicts with insertion order, exceptions, `isinstance`, ElementTree.
  `tools/tables.py` parses `/repo` (without running it) and compares what can be compared mechanically: the class
  table of `Model/Copying`, the function identifiers of the standard, every string literal of the model, and the
  files, line ranges and functions the comments cite.

## 4. Known deviations of the code from its properties

See the notes in `MANIFEST.json`; each has a witness theorem. In short: errors in targets are never absorbed (C09);
conditions are judged by Python truth value (C11); one PIP answer may contain duplicates (C17) and one-shot iterators
are lost (C57, C40); the decision constants are shared and mutable (C28); responses always have status OK (C29) and
no obligations (C30); failed setters leave the identifier behind (C31, C60); UniqList accepts repeated items of one
iterable (C41); `get` of the dicts ignores defaults (C42); `setdefault` bypasses the key check (C43); comments cut
values off with lxml (C45, C63); only string data types can be read from policies (C47); subject categories,
non-string values and resource identifiers do not survive writing (C51, C52); `file://.//` references escape the
base path (C53); debug logging can make a match fail (C54); `round` never works on attribute values (C58);
`PDP.fromPolicySource` without a finder and `PolicySet.fromSource` raise NameError and TypeError (C65); adding a
Permit rule can turn Permit into Deny (C70); absolute paths do not find the root element, `//` twice selects elements
twice, prefixes, `text()` and attribute steps raise, and blanks make a path find nothing (C71); function identifiers outside the standard are accepted (C72); a lookup can
overwrite a registration made at the same time (C74); most objects do not survive deep copies or pickling (C75);
pretty printing escapes nothing, loses text between children and prints elements without namespace wrongly, and with lxml fails on comments and mixes up prefixes that are declared twice (C76);
prefixes registered while a policy is read are lost (C77); calling an object by name leaves its directory on the module
search path (C79); classes of the same name share a reader and some have none (C80); comparing decisions with objects of
other types raises UnboundLocalError (C81); a new rule's description cannot be read (C82); created results lose their
resource id (C83); a failed read leaves the connection open and capital letters in `no_proxy` disable an entry (C84);
modules loaded after a change of `Config.use_lxml` use another library (C85); splitting an overrides policy with a failing
rule changes the decision (C87); values of requests sent as pretty-printed text lose white space and can smuggle in attributes,
so that access is granted that would be denied without sending (C88); paths that look at the text of elements with children depend on white space (C89); designators ignore namespaces of
attributes and all but the last action, paths do not, and values without text are errors for selectors only (C90);
with a context handler the order of several subjects matters (C92); functions that were used before the class for their data type
is replaced go on using the old class, even if their entries are deleted (C96); a file that two references name is used in two versions if
its identifier changes in between (C97); a reader or printer that finishes undoes what other threads have registered, so that
responses written meanwhile are not XML (C98); qualified names cannot be dictionary keys and are written under their old name after assignments
(C99); a data type registered during an evaluation can give a decision that neither registry gives (C100);
-bag, -regexp-match, -match, concatenate and round let TypeError, ValueError, OverflowError and re.error out for values
they cannot use (C103). Documents that cannot be used raise AttributeError, TypeError, ImportError or NotImplementedError instead of XMLParseError for a misspelt effect, an unknown combining algorithm, environment matches or obligations (C106). Requests with attributes that lack a DataType or have an unknown one raise TypeError, responses with an unknown decision AttributeError (C107). Permit-overrides and deny-overrides of policy sets are not mirror images of each other for Indeterminate members; the standard prescribes this (C108). Narrowing the target of a Permit rule whose condition cannot be evaluated may turn Indeterminate into Permit, since a later rule is reached; the standard prescribes this too (C110). So may dropping a match element that cannot be evaluated from the target of a Deny rule (C111).

## 5. Modelled / not modelled

Modelled (file: definitions):

| Source | Model |
|---|---|
| `core/attributevalue.py`, `core/attribute.py` | classes, factory map, `value` setter, equality: `Model/Value`, `Model/Containers` |
| `core/functions/__init__.py`, `v1/*`, `v2/*` | all function classes, factories, function map, errors: `Model/Eval`, `Model/FunctionMap` |
| `core/apply.py`, `core/condition.py`, `core/expression.py` | `Model/Eval`, `Model/Setters` |
| `core/attributedesignator.py`, `core/attributeselector.py` | `Model/Eval` |
| `core/match.py`, `core/target.py`, `core/rule.py` | `Model/Policy`, `Model/Setters` |
| `core/rule_combining_alg.py`, `core/policy_combining_alg.py` | `Model/Policy`, `Model/DecisionHeap`, `Model/Setters` |
| `core/policybase.py`, `core/policy.py`, `core/policyset.py`, `core/policydefaults.py` | `Model/Policy`, `Model/Finder`, `Model/Setters` |
| `core/context/*` | requests, results, decisions, PDP: `Model/Eval`, `Model/Policy`, `Model/DecisionHeap`; in several threads: `Model/Threads`, `Model/MapThreads`; interrupted: `Model/Faults` |
| `finder/*` | `Model/Finder` |
| `parsers/etree/*` | `Model/Readers`, `Model/NsRegistry`, `Model/Finder`, `Model/ContextXml` |
| `utils/__init__.py` | `Model/Containers` |
| `__slots__`, `__getstate__`, `__setstate__` of all classes | `Model/Copying` |
| `utils/xpath_selector.py` | `Model/XPath` (with lxml: its XPath engine is a parameter); on request documents: `Model/SelectorService` |
| `utils/etree.py` | `prettyPrint`, and `QName.getNs`, `QName.getLocalPart`: `Model/PrettyPrint` (the class `QName`: `Model/QName`); in several threads: `Model/PrintThreads`; with lxml `Model/PrettyPrintLxml` |
| property setters of all classes | `Model/Attributes`, `Model/Setters`, `Model/Comparison` |
| `createInitialised`, `core/context/exceptions.py` | `Model/Creation` |
| `utils/factory.py`, `parsers/etree/factory.py` | `Model/Modules` |
| `utils/urlfetcher.py` | `Model/UrlFetch`; `fetch` is a parameter of `Model/Finder` |
| `ndg/xacml/__init__.py` | `Model/XmlLibrary` |
| `addClass`, `addReader`, `functionMap` as process-wide state | `Model/Extension` |

Simplifications (each also stated at its definition):

* `lower`/`upper` map ASCII letters and all the other characters that give ASCII letters; the remaining ones stay
  as they are (this can be seen in host names and reader modules only).
* Exceptions are `Exception` subclasses, and only those that the code raises (`RecursionError` only from nested documents; the limit
  counts documents), except in `Model/Faults`, where anything can be raised at the entry and exit of functions, around every operation
  on the process state and in handlers.
* `==` on floats is used where Python's containers test identity first (differs for NaN only).
* The PIP, custom functions and XPath engines do not modify the policy or the request; custom functions do not touch
  the PIP log or the regexp cache.
* User-defined Expression subclasses, readers added with `ReaderFactory.addReader` (except in `Model/Modules`), and attribute value classes
  whose identifier is not a string are not represented.
* Module paths with `.` or `:` inside the module name are taken not to exist.
* Threads: one read or write of a dictionary entry or attribute is one step (CPython's global interpreter lock); a call
  of a PIP is one step; parallel deletions from the function map and the finders' caches are left out.
* `v1/regexp_match.py`, `v1/match.py` and `v2/concatenate.py` look the class for strings up when the module is imported; the model does so
  when the function is looked up first (C96 leaves these functions out).
* Copying: objects are trees; strings, elements, functions and engines are atoms that copy and pickle well.
* `tail` texts of elements are left out except in `Model/PrettyPrint` (nothing else reads them); the ElementPath cache is left out.

Not modelled: logging output; `canonicalize` (it needs a package that is not in the dependencies and raises without it); sockets; outside `Model/Modules` an import
"gives a factory or raises"; `core/obligation.py` and `core/variable*.py` beyond the fields used (obligations cannot
be read from documents: the reader rejects them, C44); abstract interfaces (`handlerinterface`, `pipinterface`, `pdpinterface`,
`pap`).
