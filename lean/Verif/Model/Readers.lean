import Verif.Model.Xml
import Verif.Model.Setters

/-!
# The ElementTree policy readers

Every reader first compares the element's local name with the one of its type; the readers are called
on elements only. Simplification throughout: `ReaderFactory.getReader` finds the package's own readers,
i.e. `ReaderFactory.addReader` (parsers/etree/factory.py:70-80) has not been called; `common` is passed
to all readers but used by the policy and policy set readers only.
-/
namespace Xacml

/-- A reader of the content of attribute values of one data type.
Models: ndg/xacml/parsers/etree/attributevaluereader.py:90-97 and classes derived from it. -/
abbrev DtReader := XNode → AttrVal → Except Exc AttrVal

/-- What the readers depend on: loading a function for an identifier (with the global function map),
the registry of attribute value classes and the registry of data type readers.
Simplification: the function map's state is not threaded through the readers; by C34 the outcome of a
lookup does not depend on earlier lookups. -/
structure RdEnv where
  fn : String → Except Exc (Option Func)
  classMap : List (String × AVClass)
  dtReaders : List (String × DtReader)

/-- Setting matchId or functionId of a new object with a given function map.
Models: ndg/xacml/core/match.py:169-183, ndg/xacml/core/apply.py:91-105. -/
def loadWith (imp : Importer) (customs : Nat → List PyVal → Except Exc PyVal) (m : FunctionMap)
    (urn : String) : Except Exc (Option Func) :=
  match FnHolder.setIdent imp { map := m } (.str urn) with
  | (.ok (), h) => .ok (h.func.bind (FnClass.toFunc customs))
  | (.error e, _) => .error e

/-- `ETreeDataTypeReaderBase.parse`. Models: ndg/xacml/parsers/etree/attributevaluereader.py:90-97. -/
def baseDtReader : DtReader := fun n v =>
  match n.text with
  | none => .error .xmlParseError
  | some t => v.setValue (some (.str t))

/-- The initial `DataTypeReaderClassFactory.MAP`.
Models: ndg/xacml/parsers/etree/attributevaluereader.py:149-154. -/
def stdDtReaders : List (String × DtReader) := stdClassMap.map fun p => (p.1, baseDtReader)

/-- `DataTypeReaderClassFactory.addReader(identifier, readerClass)` with a proper reader class.
Models: ndg/xacml/parsers/etree/attributevaluereader.py:156-158. -/
def addDtReader (m : List (String × DtReader)) (dt : String) (r : DtReader) : List (String × DtReader) :=
  dictSet m dt r

/-- `elem.attrib.get(name)` for a required attribute.
Models: e.g. ndg/xacml/parsers/etree/policyreader.py:84-93. -/
def requiredAttr (n : XNode) (k : String) : Except Exc String :=
  match n.attr k with
  | some v => .ok v
  | none => .error .xmlParseError

/-- The check of the element's name made by all readers.
Models: e.g. ndg/xacml/parsers/etree/policyreader.py:77-80. -/
def expectName (n : XNode) (k : String) : Except Exc Unit :=
  if n.name = k then .ok () else .error .xmlParseError

/-- White space as stripped by `str.strip()`. -/
def isPySpace (c : Char) : Bool :=
  (9 ≤ c.toNat && c.toNat ≤ 13) || (28 ≤ c.toNat && c.toNat ≤ 32) || c.toNat == 0x85 || c.toNat == 0xa0
    || c.toNat == 0x1680 || (0x2000 ≤ c.toNat && c.toNat ≤ 0x200a) || c.toNat == 0x2028
    || c.toNat == 0x2029 || c.toNat == 0x202f || c.toNat == 0x205f || c.toNat == 0x3000

/-- `s.strip()` (Python built-in). -/
def pyStrip (s : String) : String :=
  String.ofList ((s.toList.dropWhile isPySpace).reverse.dropWhile isPySpace).reverse

/-- `str2Bool`. Models: ndg/xacml/utils/__init__.py:15. -/
def str2Bool (s : String) : Bool :=
  [chars% "yes", chars% "true", chars% "t", chars% "1"].contains (strLower s.toList)

/-! ## Attribute values, designators, selectors -/

/-- `AttributeValueReader`. The data type reader is looked up in a dict (KeyError).
Models: ndg/xacml/parsers/etree/attributevaluereader.py:33-87, 160-162. -/
def readAttributeValue (env : RdEnv) (n : XNode) : Except Exc AttrVal := do
  expectName n "AttributeValue"
  let dt ← requiredAttr n "DataType"
  match classLookup env.classMap (some dt) with
  | none => .error .xmlParseError
  | some c =>
    let v := { c.new with dataType := dt }
    match dictGet env.dtReaders dt with
    | none => .error .keyError
    | some r => r n v

/-- `ELEMENT_LOCAL_NAME` of the designator classes.
Models: ndg/xacml/core/attributedesignator.py:141-375. -/
def Category.designatorName : Category → String
  | .subject => "SubjectAttributeDesignator"
  | .resource => "ResourceAttributeDesignator"
  | .action => "ActionAttributeDesignator"
  | .environment => "EnvironmentAttributeDesignator"

/-- The reader of a designator class: there is no module for the environment one, so looking it up
raises ImportError. SubjectCategory is not read.
Models: ndg/xacml/parsers/etree/expressionreader.py:28-62, attributedesignatorreader.py:21-59,
ndg/xacml/parsers/etree/factory.py:82-109. -/
def readDesignator (cat : Category) (n : XNode) : Except Exc Designator :=
  if cat = .environment then .error .importError
  else do
    expectName n cat.designatorName
    let dt ← requiredAttr n "DataType"
    let aid ← requiredAttr n "AttributeId"
    .ok { attributeId := some aid, dataType := some dt, issuer := n.attr "Issuer",
          mustBePresent := ((n.attr "MustBePresent").map str2Bool).getD false }

/-- `AttributeSelectorReader`. Models: ndg/xacml/parsers/etree/expressionreader.py:28-62,
attributeselectorreader.py:27-67. -/
def readSelector (n : XNode) : Except Exc Selector := do
  expectName n "AttributeSelector"
  let dt ← requiredAttr n "DataType"
  let path ← requiredAttr n "RequestContextPath"
  .ok { path := some path, dataType := some dt,
        mustBePresent := ((n.attr "MustBePresent").map str2Bool).getD false }

/-! ## Conditions -/

mutual
/-- `ApplyReader`. Models: ndg/xacml/parsers/etree/applyreader.py:51-151. -/
def readApply (env : RdEnv) : XNode → Except Exc Expr
  | .other => .error .attributeError
  | .elem tag attrib text children => do
    expectName (.elem tag attrib text children) "Apply"
    let fid ← requiredAttr (.elem tag attrib text children) "FunctionId"
    let f ← env.fn fid
    let args ← readArgs env children
    .ok (.apply f args)
/-- The loop over the children of Apply.
Models: ndg/xacml/parsers/etree/applyreader.py:83-149. -/
def readArgs (env : RdEnv) : List XNode → Except Exc (List Expr)
  | [] => .ok []
  | .other :: rest => readArgs env rest
  | n@(.elem tag _ _ _) :: rest => do
    let x ← (
      if localPart tag = "Apply" then readApply env n
      else if localPart tag = "AttributeValue" then (readAttributeValue env n).map .value
      else if localPart tag = "SubjectAttributeDesignator" then
        (readDesignator .subject n).map (.designator .subject)
      else if localPart tag = "ResourceAttributeDesignator" then
        (readDesignator .resource n).map (.designator .resource)
      else if localPart tag = "EnvironmentAttributeDesignator" then
        (readDesignator .environment n).map (.designator .environment)
      else if localPart tag = "ActionAttributeDesignator" then
        (readDesignator .action n).map (.designator .action)
      else if localPart tag = "AttributeSelector" then (readSelector n).map .selector
      else if localPart tag = "Condition" then readConditionExpr env n >>= fun _ => .error .typeError
      else if localPart tag = "Function" then .error .notImplementedError
      else if localPart tag = "VariableReference" then .error .notImplementedError
      else .error .xmlParseError)
    let xs ← readArgs env rest
    .ok (x :: xs)
/-- `ConditionReader`: the expression of the condition read. A sole child other than Apply raises
AttributeError because the error message uses a missing class variable. (Appending a Condition to the
expressions of an Apply raises TypeError: it is not an Expression.)
Models: ndg/xacml/parsers/etree/conditionreader.py:29-70. -/
def readConditionExpr (env : RdEnv) : XNode → Except Exc Expr
  | .other => .error .attributeError
  | .elem tag attrib text children => do
    expectName (.elem tag attrib text children) "Condition"
    if (elementChildren children).length ≠ 1 then .error .xmlParseError
    else readSoleChild env children
/-- Reading the only element among the children of a Condition.
Models: ndg/xacml/parsers/etree/conditionreader.py:60-66. -/
def readSoleChild (env : RdEnv) : List XNode → Except Exc Expr
  | [] => .error .nameError
  | .other :: rest => readSoleChild env rest
  | n@(.elem tag _ _ _) :: _ => if localPart tag = "Apply" then readApply env n else .error .attributeError
end

/-! ## Targets -/

/-- `ELEMENT_LOCAL_NAME` of the match classes. Models: ndg/xacml/core/match.py:349-371. -/
def Category.matchName : Category → String
  | .subject => "SubjectMatch"
  | .resource => "ResourceMatch"
  | .action => "ActionMatch"
  | .environment => "EnvironmentMatch"

/-- `ELEMENT_LOCAL_NAME` of the target child classes. Models: ndg/xacml/core/target.py,
ndg/xacml/core/subject.py, resource.py, action.py, environment.py. -/
def Category.childName : Category → String
  | .subject => "Subject"
  | .resource => "Resource"
  | .action => "Action"
  | .environment => "Environment"

/-- One child of a match element. The message for an unknown child uses a missing class variable, so
that AttributeError is raised. Models: ndg/xacml/parsers/etree/matchreader.py:84-120. -/
def readMatchChild (env : RdEnv) (cat : Category) (m : Match) (n : XNode) : Except Exc Match :=
  if n.name = "AttributeValue" then do
    let v ← readAttributeValue env n
    .ok { m with value := some v }
  else if n.name = cat.designatorName then
    if m.selector.isSome then .error .xmlParseError
    else do
      let d ← readDesignator cat n
      .ok { m with designator := some (cat, d), selector := none }
  else if n.name = "AttributeSelector" then
    if m.designator.isSome then .error .xmlParseError
    else do
      let s ← readSelector n
      .ok { m with selector := some s, designator := none }
  else .error .attributeError

/-- The loop over the children of a match element.
Models: ndg/xacml/parsers/etree/matchreader.py:84-120. -/
def readMatchChildren (env : RdEnv) (cat : Category) (m : Match) : List XNode → Except Exc Match
  | [] => .ok m
  | n :: rest => do
    let m' ← readMatchChild env cat m n
    readMatchChildren env cat m' rest

/-- The reader of a match class: there is no module for EnvironmentMatch (ImportError).
Models: ndg/xacml/parsers/etree/matchreader.py:45-122, subjectmatchreader.py, resourcematchreader.py,
actionmatchreader.py, ndg/xacml/parsers/etree/factory.py:82-109. -/
def readMatch (env : RdEnv) (cat : Category) (n : XNode) : Except Exc Match :=
  if cat = .environment then .error .importError
  else do
    expectName n cat.matchName
    let mid ← requiredAttr n "MatchId"
    let f ← env.fn mid
    readMatchChildren env cat
      { matchId := some mid, value := none, designator := none, selector := none, func := f }
      (elementChildren n.children)

/-- The loop over the children of a target child.
Models: ndg/xacml/parsers/etree/targetchildreader.py:45-56. -/
def readMatches (env : RdEnv) (cat : Category) : List XNode → Except Exc (List Match)
  | [] => .ok []
  | n :: rest =>
    if n.name = cat.matchName then do
      let m ← readMatch env cat n
      let ms ← readMatches env cat rest
      .ok (m :: ms)
    else .error .xmlParseError

/-- `TargetChildReader`. Models: ndg/xacml/parsers/etree/targetchildreader.py:25-58. -/
def readTargetChild (env : RdEnv) (cat : Category) (n : XNode) : Except Exc TargetChild := do
  expectName n cat.childName
  let ms ← readMatches env cat (elementChildren n.children)
  .ok { matches_ := ms }

/-- The loop over one of the sections Subjects, Resources, Actions, Environments.
Models: ndg/xacml/parsers/etree/targetreader.py:55-76. -/
def readTargetChildren (env : RdEnv) (cat : Category) : List XNode → Except Exc (List TargetChild)
  | [] => .ok []
  | n :: rest => do
    let c ← readTargetChild env cat n
    let cs ← readTargetChildren env cat rest
    .ok (c :: cs)

/-- One child of Target; the entries of a repeated section accumulate.
Models: ndg/xacml/parsers/etree/targetreader.py:51-79. -/
def readSection (env : RdEnv) (t : Target) (n : XNode) : Except Exc Target :=
  if n.name = "Subjects" then do
    let cs ← readTargetChildren env .subject (elementChildren n.children)
    .ok { t with subjects := t.subjects ++ cs }
  else if n.name = "Resources" then do
    let cs ← readTargetChildren env .resource (elementChildren n.children)
    .ok { t with resources := t.resources ++ cs }
  else if n.name = "Actions" then do
    let cs ← readTargetChildren env .action (elementChildren n.children)
    .ok { t with actions := t.actions ++ cs }
  else if n.name = "Environments" then do
    let cs ← readTargetChildren env .environment (elementChildren n.children)
    .ok { t with environments := t.environments ++ cs }
  else .error .xmlParseError

/-- The loop over the children of Target. Models: ndg/xacml/parsers/etree/targetreader.py:51-79. -/
def readSections (env : RdEnv) (t : Target) : List XNode → Except Exc Target
  | [] => .ok t
  | n :: rest => do
    let t' ← readSection env t n
    readSections env t' rest

/-- `TargetReader`. Models: ndg/xacml/parsers/etree/targetreader.py:31-81. -/
def readTarget (env : RdEnv) (n : XNode) : Except Exc Target := do
  expectName n "Target"
  readSections env { subjects := [], resources := [], actions := [], environments := [] }
    (elementChildren n.children)

/-! ## Rules and policies -/

/-- Setting the effect's value from a string. Models: ndg/xacml/core/rule.py:75-94. -/
def parseEffect (s : String) : Except Exc Effect :=
  if s = "Deny" then .ok .deny else if s = "Permit" then .ok .permit else .error .attributeError

/-- One child of Rule; a later Target, Condition or Description replaces an earlier one.
Models: ndg/xacml/parsers/etree/rulereader.py:65-82. -/
def readRuleChild (env : RdEnv) (r : Rule) (n : XNode) : Except Exc Rule :=
  if n.name = "Description" then
    match n.text with
    | some t => .ok { r with description := some (pyStrip t) }
    | none => .ok r
  else if n.name = "Condition" then do
    let x ← readConditionExpr env n
    .ok { r with condition := some { expression := some x } }
  else if n.name = "Target" then do
    let t ← readTarget env n
    .ok { r with target := some t }
  else .error .xmlParseError

/-- The loop over the children of Rule. Models: ndg/xacml/parsers/etree/rulereader.py:65-82. -/
def readRuleChildren (env : RdEnv) (r : Rule) : List XNode → Except Exc Rule
  | [] => .ok r
  | n :: rest => do
    let r' ← readRuleChild env r n
    readRuleChildren env r' rest

/-- `RuleReader`. Models: ndg/xacml/parsers/etree/rulereader.py:29-84. -/
def readRule (env : RdEnv) (n : XNode) : Except Exc Rule := do
  expectName n "Rule"
  let id ← requiredAttr n "RuleId"
  let eff ← requiredAttr n "Effect"
  let effect ← parseEffect eff
  readRuleChildren env
    { id := some id, effect := some effect, target := none, condition := none }
    (elementChildren n.children)

/-- `PolicyDefaultsReader`: the XPath version. All children are counted, comments too; a single child
that is not an element has no string tag, on which `rsplit` raises AttributeError.
Models: ndg/xacml/parsers/etree/policydefaultsreader.py:26-65. -/
def readPolicyDefaults (n : XNode) : Except Exc String := do
  expectName n "PolicyDefaults"
  match n.children with
  | [.elem tag a t cs] =>
    if localPart tag ≠ "XPathVersion" then .error .xmlParseError
    else match (XNode.elem tag a t cs).text with
      | some v => .ok v
      | none => .error .xmlParseError
  | [.other] => .error .attributeError
  | _ => .error .xmlParseError

/-- `elem.attrib.get("Version") or "2.0"`. Models: ndg/xacml/parsers/etree/policyreader.py:99-100,
policysetreader.py:83-84. -/
def readVersion (n : XNode) : String :=
  match n.attr "Version" with
  | some v => if v = "" then "2.0" else v
  | none => "2.0"

/-- Setting the combining algorithm of a new policy from its identifier.
Models: ndg/xacml/core/policy.py:249-289, ndg/xacml/core/policyset.py:240-282. -/
def loadAlg (map : List (String × AlgEntry)) (h : Header) (s : String) : Except Exc Header :=
  match h.setAlgId map (.str s) with
  | (.ok (), h') => .ok h'
  | (.error e, _) => .error e

/-- One child of Policy. There is no reader module for VariableDefinition.
Models: ndg/xacml/parsers/etree/policyreader.py:103-145. -/
def readPolicyChild (env : RdEnv) (p : Header × List Rule) (n : XNode) : Except Exc (Header × List Rule) :=
  if n.name = "Description" then
    match n.text with
    | some t => .ok ({ p.1 with description := some (pyStrip t) }, p.2)
    | none => .ok p
  else if n.name = "PolicyDefaults" then do
    let v ← readPolicyDefaults n
    .ok ({ p.1 with xpathVersion := some v }, p.2)
  else if n.name = "Target" then do
    let t ← readTarget env n
    .ok ({ p.1 with target := some t }, p.2)
  else if n.name = "CombinerParameters" then .error .notImplementedError
  else if n.name = "RuleCombinerParameters" then .error .notImplementedError
  else if n.name = "VariableDefinition" then .error .importError
  else if n.name = "Rule" then do
    let r ← readRule env n
    if (p.2.map Rule.id).contains r.id then .error .xmlParseError
    else .ok (p.1, p.2 ++ [r])
  else if n.name = "Obligations" then .error .notImplementedError
  else .error .xmlParseError

/-- The loop over the children of Policy.
Models: ndg/xacml/parsers/etree/policyreader.py:103-145. -/
def readPolicyChildren (env : RdEnv) (p : Header × List Rule) :
    List XNode → Except Exc (Header × List Rule)
  | [] => .ok p
  | n :: rest => do
    let p' ← readPolicyChild env p n
    readPolicyChildren env p' rest

/-- `PolicyReader.processElement` up to the registration with the policy finder.
Models: ndg/xacml/parsers/etree/policyreader.py:60-145. -/
def readPolicy (env : RdEnv) (n : XNode) : Except Exc PolicyNode := do
  expectName n "Policy"
  let pid ← requiredAttr n "PolicyId"
  let alg ← requiredAttr n "RuleCombiningAlgId"
  let h ← loadAlg ruleAlgMap { ident := some pid, alg := none, target := none } alg
  let p ← readPolicyChildren env ({ h with version := readVersion n }, []) (elementChildren n.children)
  .ok (.policy p.1 p.2)

end Xacml
