import Verif.Spec.Relevance
import Verif.Spec.Reader

/-!
# Specification: the same request, or the same policy, in another order
-/
namespace Xacml.Spec
open Xacml

/-- The same elements in another order, each possibly changed in the way `R` says. -/
def Rearranged {α} (R : α → α → Prop) (l l' : List α) : Prop := ∃ m, l.Perm m ∧ Each R m l'

/-- The same attribute with its values in another order. -/
structure AttributeReordered (a a' : Attribute) : Prop where
  attributeId : a.attributeId = a'.attributeId
  dataType : a.dataType = a'.dataType
  issuer : a.issuer = a'.issuer
  values : a.values.Perm a'.values

/-- The same attributes in another order. -/
def AttributesReordered (as as' : List Attribute) : Prop := Rearranged AttributeReordered as as'

/-- The same subject with its attributes in another order. -/
def SubjectReordered (s s' : CtxSubject) : Prop := s.category = s'.category ∧ AttributesReordered s.attributes s'.attributes

/-- The same resource with its attributes in another order. -/
def ResourceReordered (x x' : CtxResource) : Prop := x.content = x'.content ∧ AttributesReordered x.attributes x'.attributes

/-- The same for the action and the environment, which may be absent. -/
def PartReordered : Option (List Attribute) → Option (List Attribute) → Prop
  | none, none => True
  | some as, some as' => AttributesReordered as as'
  | _, _ => False

/-- The same request with its subjects, resources, attributes and attribute values in another order. -/
structure RequestReordered (d d' : ReqData) : Prop where
  subjects : Rearranged SubjectReordered d.subjects d'.subjects
  resources : Rearranged ResourceReordered d.resources d'.resources
  action : PartReordered d.action d'.action
  environment : PartReordered d.environment d'.environment

/-- XPath finds the same in both requests, up to order. -/
def SelectsAlike (r r' : Request) (s : Selector) : Prop :=
  match r.attributeSelector, r'.attributeSelector with
  | none, none => True
  | some x, some x' => match x s.path, x' s.path with
    | .ok ns, .ok ns' => ns.Perm ns'
    | .error _, .error _ => True
    | _, _ => False
  | _, _ => False

/-- Two requests look the same through a reading, up to order; no context handler is asked. -/
def LooksAlike (r r' : Request) : Reading → Prop
  | .designator cat d => (cat = .subject → r.ctxHandler = none ∧ r'.ctxHandler = none) ∧
      match attributesOf cat r.data, attributesOf cat r'.data with
      | none, none => True
      | some as, some as' => (designated d as).Perm (designated d as')
      | _, _ => False
  | .selector s => SelectsAlike r r' s

/-- The same value; bags may be in another order. -/
inductive SameButOrder : PyVal → PyVal → Prop
  | same (x) : SameButOrder x x
  | bag {t vs ws} : vs.Perm ws → SameButOrder (.bag ⟨t, vs⟩) (.bag ⟨t, ws⟩)

/-- A custom function that does not distinguish bags by the order of their values. -/
def OrderBlind (f : List PyVal → Except Exc PyVal) : Prop :=
  ∀ xs xs', Each SameButOrder xs xs' → ∀ x, f xs = .ok x → ∃ x', f xs' = .ok x' ∧ SameButOrder x x'

/-- An expression applies a function, at any depth. -/
inductive Applied (f : Func) : Expr → Prop
  | here {args} : Applied f (.apply (some f) args)
  | inside {g args e} : e ∈ args → Applied f e → Applied f (.apply g args)

/-- A condition of a policy or policy set applies a function, at any depth. -/
inductive AppliedIn (f : Func) : PolicyNode → Prop
  | rule {hdr rules rule c e} : rule ∈ rules → rule.condition = some c → c.expression = some e → Applied f e →
      AppliedIn f (.policy hdr rules)
  | child {hdr ps p} : p ∈ ps → AppliedIn f p → AppliedIn f (.policySet hdr ps)

/-- A section of a target with its entries in another order, and the match elements of each entry too. -/
def SectionReordered (cs cs' : List TargetChild) : Prop :=
  Rearranged (fun c c' => c.matches_.Perm c'.matches_) cs cs'

/-- A target with its sections in another order. -/
def TargetReordered : Option Target → Option Target → Prop
  | none, none => True
  | some t, some t' => SectionReordered t.subjects t'.subjects ∧ SectionReordered t.resources t'.resources ∧
      SectionReordered t.actions t'.actions ∧ SectionReordered t.environments t'.environments
  | _, _ => False

/-- The same rule with its target in another order. -/
def RuleReordered (a b : Rule) : Prop :=
  a.effect = b.effect ∧ a.condition = b.condition ∧ TargetReordered a.target b.target

/-- Deny-overrides or permit-overrides. -/
def Overrides (h : Header) : Prop := h.alg = some .denyOverrides ∨ h.alg = some .permitOverrides

mutual
/-- The same policy in another order: at any depth, targets may be reordered, and the children of an
overrides algorithm may be. -/
inductive PolicyReordered : PolicyNode → PolicyNode → Prop
  | policy {h h' rs rs'} : h.alg = h'.alg → TargetReordered h.target h'.target → Each RuleReordered rs rs' →
      PolicyReordered (.policy h rs) (.policy h' rs')
  | policySet {h h' ps ps'} : h.alg = h'.alg → TargetReordered h.target h'.target → PoliciesReordered ps ps' →
      PolicyReordered (.policySet h ps) (.policySet h' ps')
  | rules {h rs rs'} : Overrides h → rs.Perm rs' → PolicyReordered (.policy h rs) (.policy h rs')
  | policies {h ps ps'} : Overrides h → ps.Perm ps' → PolicyReordered (.policySet h ps) (.policySet h ps')
  | trans {p q s} : PolicyReordered p q → PolicyReordered q s → PolicyReordered p s
/-- The same for the policies of a set, place by place. -/
inductive PoliciesReordered : List PolicyNode → List PolicyNode → Prop
  | nil : PoliciesReordered [] []
  | cons {p p' ps ps'} : PolicyReordered p p' → PoliciesReordered ps ps' → PoliciesReordered (p :: ps) (p' :: ps')
end

end Xacml.Spec
