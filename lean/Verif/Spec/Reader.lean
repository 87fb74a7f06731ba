import Verif.Model.Readers

/-!
# What policy documents mean

A declarative grammar of the policy documents that can be read, written with quantifiers over an element's
attributes, text and element children; comments and the like are not element children. The environment
(functions, attribute value classes, data type readers) is the same as the readers'.
-/
namespace Xacml.Spec

/-- The lists correspond element by element. -/
def Each {α β} (R : α → β → Prop) : List α → List β → Prop
  | [], bs => bs = []
  | a :: as, bs => ∃ b bs', bs = b :: bs' ∧ R a b ∧ Each R as bs'

/-- The element children. -/
def elems (n : XNode) : List XNode := n.children.filter XNode.isElem

/-- The element children with a given local name, in document order. -/
def childrenNamed (n : XNode) (k : String) : List XNode := (elems n).filter (fun c => decide (c.name = k))

/-- All element children have one of the given local names. -/
def OnlyChildren (n : XNode) (ks : List String) : Prop := ∀ c ∈ elems n, c.name ∈ ks

/-- All of the elements mean something, and the last one's meaning is the one kept. -/
def LastOf {β} (R : XNode → β → Prop) (l : List XNode) (o : Option β) : Prop :=
  ∃ bs, Each R l bs ∧ o = bs.getLast?

/-- Words for true: yes, true, t and 1, in any case. -/
def TrueWord (s : String) : Prop :=
  s.toList.map Char.toLower ∈ [chars% "yes", chars% "true", chars% "t", chars% "1"]

/-- The MustBePresent flag: absent means false. -/
def MustBePresent (n : XNode) (b : Bool) : Prop :=
  b = true ↔ ∃ s, n.attr "MustBePresent" = some s ∧ TrueWord s

/-- An AttributeValue element: the DataType is registered with a class and a reader, which accepts the
element. -/
def IsValue (env : RdEnv) (n : XNode) (v : AttrVal) : Prop :=
  n.name = "AttributeValue" ∧
  ∃ dt c r, n.attr "DataType" = some dt ∧ env.classMap.lookup dt = some c ∧
    dictGet env.dtReaders dt = some r ∧ r n { cls := c, dataType := dt, value := none } = .ok v

/-- Local names of designators; those of the environment cannot be read. -/
def designatorTag : Category → Option String
  | .subject => some "SubjectAttributeDesignator"
  | .resource => some "ResourceAttributeDesignator"
  | .action => some "ActionAttributeDesignator"
  | .environment => none

/-- An attribute designator element. -/
def IsDesignator (cat : Category) (n : XNode) (d : Designator) : Prop :=
  designatorTag cat = some n.name ∧
  d.attributeId.isSome ∧ n.attr "AttributeId" = d.attributeId ∧
  d.dataType.isSome ∧ n.attr "DataType" = d.dataType ∧
  d.issuer = n.attr "Issuer" ∧ MustBePresent n d.mustBePresent

/-- An attribute selector element. -/
def IsSelector (n : XNode) (s : Selector) : Prop :=
  n.name = "AttributeSelector" ∧
  s.path.isSome ∧ n.attr "RequestContextPath" = s.path ∧
  s.dataType.isSome ∧ n.attr "DataType" = s.dataType ∧ MustBePresent n s.mustBePresent

mutual
/-- An expression element: a value, a designator, a selector, or an Apply whose function is known and
whose element children are expressions. -/
def IsExpr (env : RdEnv) : XNode → Expr → Prop
  | .other, _ => False
  | .elem tag a t cs, x =>
    (∃ v, IsValue env (.elem tag a t cs) v ∧ x = .value v) ∨
    (∃ cat d, IsDesignator cat (.elem tag a t cs) d ∧ x = .designator cat d) ∨
    (∃ s, IsSelector (.elem tag a t cs) s ∧ x = .selector s) ∨
    ((XNode.elem tag a t cs).name = "Apply" ∧ ∃ fid f xs,
      (XNode.elem tag a t cs).attr "FunctionId" = some fid ∧ env.fn fid = .ok f ∧
      AreExprs env cs xs ∧ x = .apply f xs)
/-- The element children are expressions, one by one. -/
def AreExprs (env : RdEnv) : List XNode → List Expr → Prop
  | [], xs => xs = []
  | .other :: l, xs => AreExprs env l xs
  | .elem tag a t cs :: l, xs =>
    ∃ y ys, xs = y :: ys ∧ IsExpr env (.elem tag a t cs) y ∧ AreExprs env l ys
end

/-- A Condition element: its only element child is an Apply. -/
def IsCondition (env : RdEnv) (n : XNode) (c : Condition) : Prop :=
  n.name = "Condition" ∧
  ∃ e x, elems n = [e] ∧ e.name = "Apply" ∧ IsExpr env e x ∧ c = { expression := some x }

/-- Local names of match elements; those of the environment cannot be read. -/
def matchTag : Category → Option String
  | .subject => some "SubjectMatch"
  | .resource => some "ResourceMatch"
  | .action => some "ActionMatch"
  | .environment => none

/-- A match element: its function is known; it holds values, designators of its category and selectors;
it does not hold both designators and selectors; of several the last one counts. -/
def IsMatch (env : RdEnv) (cat : Category) (n : XNode) (m : Match) : Prop :=
  matchTag cat = some n.name ∧
  (∃ mid, n.attr "MatchId" = some mid ∧ m.matchId = some mid ∧ env.fn mid = .ok m.func) ∧
  ∃ dtag, designatorTag cat = some dtag ∧
    OnlyChildren n ["AttributeValue", dtag, "AttributeSelector"] ∧
    LastOf (IsValue env) (childrenNamed n "AttributeValue") m.value ∧
    LastOf (fun c d => ∃ d', IsDesignator cat c d' ∧ d = (cat, d')) (childrenNamed n dtag) m.designator ∧
    LastOf IsSelector (childrenNamed n "AttributeSelector") m.selector ∧
    (childrenNamed n dtag = [] ∨ childrenNamed n "AttributeSelector" = [])

/-- Local names of target entries. -/
def entryTag : Category → String
  | .subject => "Subject"
  | .resource => "Resource"
  | .action => "Action"
  | .environment => "Environment"

/-- A Subject, Resource, Action or Environment element: all of its element children are matches. -/
def IsEntry (env : RdEnv) (cat : Category) (n : XNode) (c : TargetChild) : Prop :=
  n.name = entryTag cat ∧ Each (IsMatch env cat) (elems n) c.matches_

/-- The entries in all sections with a given local name. -/
def sectionEntries (n : XNode) (k : String) : List XNode := (childrenNamed n k).flatMap elems

/-- A Target element. -/
def IsTarget (env : RdEnv) (n : XNode) (t : Target) : Prop :=
  n.name = "Target" ∧ OnlyChildren n ["Subjects", "Resources", "Actions", "Environments"] ∧
  Each (IsEntry env .subject) (sectionEntries n "Subjects") t.subjects ∧
  Each (IsEntry env .resource) (sectionEntries n "Resources") t.resources ∧
  Each (IsEntry env .action) (sectionEntries n "Actions") t.actions ∧
  Each (IsEntry env .environment) (sectionEntries n "Environments") t.environments

/-- The description: the text of the last Description that has one, without surrounding white space. -/
def description (n : XNode) : Option String :=
  ((childrenNamed n "Description").filterMap XNode.text).getLast?.map pyStrip

/-- The words for the effects. -/
def effectName : Effect → String
  | .permit => "Permit"
  | .deny => "Deny"

/-- A Rule element. -/
def IsRule (env : RdEnv) (n : XNode) (r : Rule) : Prop :=
  n.name = "Rule" ∧ r.id.isSome ∧ n.attr "RuleId" = r.id ∧
  ((n.attr "Effect" = some "Permit" ∧ r.effect = some .permit) ∨
   (n.attr "Effect" = some "Deny" ∧ r.effect = some .deny)) ∧
  OnlyChildren n ["Description", "Condition", "Target"] ∧
  r.description = description n ∧
  LastOf (IsCondition env) (childrenNamed n "Condition") r.condition ∧
  LastOf (IsTarget env) (childrenNamed n "Target") r.target

/-- A PolicyDefaults element: exactly one child, of any kind, which is an XPathVersion with a text. -/
def IsDefaults (n : XNode) (v : String) : Prop :=
  n.name = "PolicyDefaults" ∧
  ∃ c, n.children = [c] ∧ c.isElem = true ∧ c.name = "XPathVersion" ∧ c.text = some v

/-- Identifiers of the rule combining algorithms that are implemented. -/
def ruleAlg (urn : String) : Option Alg :=
  if urn = "urn:oasis:names:tc:xacml:1.0:rule-combining-algorithm:deny-overrides" then some .denyOverrides
  else if urn = "urn:oasis:names:tc:xacml:1.0:rule-combining-algorithm:permit-overrides" then
    some .permitOverrides
  else if urn = "urn:oasis:names:tc:xacml:1.0:rule-combining-algorithm:first-applicable" then
    some .firstApplicable
  else none

/-- The version: 2.0 when absent or empty. -/
def version (n : XNode) : String :=
  if n.attr "Version" = none ∨ n.attr "Version" = some "" then "2.0" else (n.attr "Version").getD ""

/-- A Policy element. -/
def IsPolicy (env : RdEnv) (n : XNode) (p : PolicyNode) : Prop :=
  n.name = "Policy" ∧
  OnlyChildren n ["Description", "PolicyDefaults", "Target", "Rule"] ∧
  ∃ h rules, p = .policy h rules ∧
    h.ident.isSome ∧ n.attr "PolicyId" = h.ident ∧
    (∃ a, n.attr "RuleCombiningAlgId" = some a ∧ h.algId = some a ∧ h.alg.isSome ∧ h.alg = ruleAlg a) ∧
    h.version = version n ∧ h.description = description n ∧
    LastOf IsDefaults (childrenNamed n "PolicyDefaults") h.xpathVersion ∧
    LastOf (IsTarget env) (childrenNamed n "Target") h.target ∧ h.obligations = [] ∧
    Each (IsRule env) (childrenNamed n "Rule") rules ∧ (rules.map Rule.id).Nodup

end Xacml.Spec
