import Verif.Spec.Finder
import Verif.Spec.Documents

/-!
# Why reading a policy document fails with something other than an XMLParseError
-/
namespace Xacml.Spec

/-- Elements of XACML 2.0 that are recognised and not supported. -/
def unsupportedTags : List String :=
  ["CombinerParameters", "RuleCombinerParameters", "PolicyCombinerParameters", "PolicySetCombinerParameters",
   "Obligations", "Function", "VariableReference"]

/-- Elements of XACML 2.0 for which the package has no reader. -/
def readerlessTags : List String :=
  ["VariableDefinition", "EnvironmentMatch", "EnvironmentAttributeDesignator"]

/-- `Flaw env n e`: the element `n`, whatever it occurs in, may make reading raise `e`. -/
inductive Flaw (env : RdEnv) (n : XNode) : Exc → Prop
  /-- An element that is not supported: NotImplementedError. -/
  | unsupported : n.name ∈ unsupportedTags → Flaw env n .notImplementedError
  /-- An element without a reader: ImportError. -/
  | readerless : n.name ∈ readerlessTags → Flaw env n .importError
  /-- A Rule with an unknown effect: AttributeError. -/
  | effect {s} : n.name = "Rule" → n.attr "Effect" = some s → (∀ x, s ≠ effectName x) → Flaw env n .attributeError
  /-- A match with a child that is neither a value nor a designator of its category nor a selector:
  AttributeError. -/
  | matchChild {cat c} : matchTag cat = some n.name → c ∈ elems n →
      c.name ≠ "AttributeValue" → designatorTag cat ≠ some c.name → c.name ≠ "AttributeSelector" →
      Flaw env n .attributeError
  /-- A Condition whose only element is not an Apply: AttributeError. -/
  | condition {c} : n.name = "Condition" → elems n = [c] → c.name ≠ "Apply" → Flaw env n .attributeError
  /-- A Condition where an expression is expected: TypeError. -/
  | conditionInApply {c} : n.name = "Apply" → c ∈ elems n → c.name = "Condition" → Flaw env n .typeError
  /-- PolicyDefaults with nothing but a comment: AttributeError. -/
  | defaults : n.name = "PolicyDefaults" → (∃ c, n.children = [c] ∧ c.isElem = false) → Flaw env n .attributeError
  /-- A Policy with an unknown combining algorithm: TypeError. -/
  | ruleAlgorithm {s} : n.name = "Policy" → n.attr "RuleCombiningAlgId" = some s → ruleAlg s = none →
      Flaw env n .typeError
  /-- A PolicySet with an unknown combining algorithm: TypeError. -/
  | policyAlgorithm {s} : n.name = "PolicySet" → n.attr "PolicyCombiningAlgId" = some s → policyAlg s = none →
      Flaw env n .typeError
  /-- A function that cannot be loaded: the function map's exception. -/
  | applied {f e} : n.name = "Apply" → n.attr "FunctionId" = some f → env.fn f = .error e → Flaw env n e
  /-- The same for a match. -/
  | matched {cat f e} : matchTag cat = some n.name → n.attr "MatchId" = some f → env.fn f = .error e → Flaw env n e
  /-- A value whose data type is registered with a class and without a reader: KeyError. -/
  | unread {dt} : n.name = "AttributeValue" → n.attr "DataType" = some dt → (env.classMap.lookup dt).isSome →
      dictGet env.dtReaders dt = none → Flaw env n .keyError
  /-- A value that the reader of its data type rejects: the reader's exception. -/
  | value {dt c r e} : n.name = "AttributeValue" → n.attr "DataType" = some dt → env.classMap.lookup dt = some c →
      dictGet env.dtReaders dt = some r → r n { cls := c, dataType := dt, value := none } = .error e → Flaw env n e

/-- A flaw somewhere in a document. -/
def FlawIn (env : RdEnv) (n : XNode) (e : Exc) : Prop := ∃ x, Within x n ∧ Flaw env x e

/-- What following references can raise: a relative reference without a base path (TypeError), a reference
without text (AttributeError), documents nested too deeply (RecursionError), what fetching raises, and
the flaws of the documents fetched. -/
inductive Trouble (env : RdEnv) (base : Option String) (fetch : Fetch) : Exc → Prop
  | relative : base = none → Trouble env base fetch .typeError
  | textless : Trouble env base fetch .attributeError
  | nested : Trouble env base fetch .recursionError
  | fetching {past url e} : fetch past url = .error e → Trouble env base fetch e
  | document {past url n e} : fetch past url = .ok n → FlawIn env n e → Trouble env base fetch e

/-- Exceptions that reading may raise with the package's own functions, classes and readers. -/
def readingErrors : List Exc :=
  [.xmlParseError, .attributeError, .typeError, .importError, .notImplementedError, .indexError,
   .unsupportedFunctionError, .unsupportedStdFunctionError, .functionMapConfigError]

/-- An element with further children. -/
def withChildren : XNode → List XNode → XNode
  | .elem tag a t cs, l => .elem tag a t (cs ++ l)
  | .other, _ => .other

end Xacml.Spec
