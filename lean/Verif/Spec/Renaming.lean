import Verif.Model.Policy

/-!
# Specification: other names for attributes and issuers
-/
namespace Xacml.Spec
open Xacml

/-- New names for attributes and issuers. -/
structure Naming where
  ofAttribute : String → String
  ofIssuer : String → String

/-- Different names stay different. -/
def Naming.OneToOne (n : Naming) : Prop :=
  (∀ a b, n.ofAttribute a = n.ofAttribute b → a = b) ∧ ∀ a b, n.ofIssuer a = n.ofIssuer b → a = b

/-- The names in an attribute of a request. -/
def Naming.inAttribute (n : Naming) (a : Attribute) : Attribute :=
  { a with attributeId := a.attributeId.map n.ofAttribute, issuer := a.issuer.map n.ofIssuer }

/-- The names in a request. -/
def Naming.inData (n : Naming) (d : ReqData) : ReqData where
  subjects := d.subjects.map fun s => { s with attributes := s.attributes.map n.inAttribute }
  resources := d.resources.map fun x => { x with attributes := x.attributes.map n.inAttribute }
  action := d.action.map (·.map n.inAttribute)
  environment := d.environment.map (·.map n.inAttribute)

/-- The names in an attribute designator. -/
def Naming.inDesignator (n : Naming) (d : Designator) : Designator :=
  { d with attributeId := d.attributeId.map n.ofAttribute, issuer := d.issuer.map n.ofIssuer }

mutual
/-- The names in an expression. -/
def Naming.inExpr (n : Naming) : Expr → Expr
  | .value v => .value v
  | .designator cat d => .designator cat (n.inDesignator d)
  | .selector s => .selector s
  | .apply f args => .apply f (n.inExprs args)
/-- The names in expressions. -/
def Naming.inExprs (n : Naming) : List Expr → List Expr
  | [] => []
  | e :: es => n.inExpr e :: n.inExprs es
end

/-- The names in a match element. -/
def Naming.inMatch (n : Naming) (m : Match) : Match :=
  { m with designator := m.designator.map fun p => (p.1, n.inDesignator p.2) }

/-- The names in a section of a target. -/
def Naming.inSection (n : Naming) (cs : List TargetChild) : List TargetChild :=
  cs.map fun c => { c with matches_ := c.matches_.map n.inMatch }

/-- The names in a target. -/
def Naming.inTarget (n : Naming) (t : Target) : Target where
  subjects := n.inSection t.subjects
  resources := n.inSection t.resources
  actions := n.inSection t.actions
  environments := n.inSection t.environments

/-- The names in a rule. -/
def Naming.inRule (n : Naming) (rule : Rule) : Rule :=
  { rule with
    target := rule.target.map n.inTarget
    condition := rule.condition.map fun c => { c with expression := c.expression.map n.inExpr } }

/-- The names in the target of a policy. -/
def Naming.inHeader (n : Naming) (h : Header) : Header := { h with target := h.target.map n.inTarget }

mutual
/-- The names in a policy or policy set. -/
def Naming.inPolicy (n : Naming) : PolicyNode → PolicyNode
  | .policy h rules => .policy (n.inHeader h) (rules.map n.inRule)
  | .policySet h ps => .policySet (n.inHeader h) (n.inPolicies ps)
/-- The names in policies. -/
def Naming.inPolicies (n : Naming) : List PolicyNode → List PolicyNode
  | [] => []
  | p :: ps => n.inPolicy p :: n.inPolicies ps
end

/-- The context handler of the renamed request answers questions in the new names as the other one does
in the old names. -/
def SameAnswers (n : Naming) : Option Pip → Option Pip → Prop
  | none, none => True
  | some pip, some pip' => ∀ log log' data d, pip' log' ⟨n.inData data, n.inDesignator d⟩ = pip log ⟨data, d⟩
  | _, _ => False

end Xacml.Spec
