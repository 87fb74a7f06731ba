import Verif.Model.Policy

/-!
# Specification: what the context handler may be asked
-/
namespace Xacml.Spec
open Xacml

/-- The subject attributes that a match element, a section of a target and a target ask for, in document order. -/
def askedByMatch (m : Match) : List Designator :=
  match m.designator with
  | some (.subject, d) => [d]
  | _ => []

def askedBySection (cs : List TargetChild) : List Designator := cs.flatMap fun c => c.matches_.flatMap askedByMatch

def askedByTarget : Option Target → List Designator
  | none => []
  | some t =>
    askedBySection t.subjects ++ askedBySection t.resources ++ askedBySection t.actions ++ askedBySection t.environments

mutual
/-- The subject attributes that an expression asks for. -/
def askedByExpr : Expr → List Designator
  | .value _ => []
  | .designator .subject d => [d]
  | .designator _ _ => []
  | .selector _ => []
  | .apply _ args => askedByExprs args
def askedByExprs : List Expr → List Designator
  | [] => []
  | e :: es => askedByExpr e ++ askedByExprs es
end

/-- The subject attributes that a rule asks for: in its target, then in its condition. -/
def askedByRule (r : Rule) : List Designator :=
  askedByTarget r.target ++ (match r.condition with
    | some ⟨some e⟩ => askedByExpr e
    | _ => [])

mutual
/-- The subject attributes that a policy or policy set asks for: in its target, then in its rules or policies. -/
def askedByPolicy : PolicyNode → List Designator
  | .policy hdr rules => askedByTarget hdr.target ++ rules.flatMap askedByRule
  | .policySet hdr ps => askedByTarget hdr.target ++ askedByPolicies ps
def askedByPolicies : List PolicyNode → List Designator
  | [] => []
  | p :: ps => askedByPolicy p ++ askedByPolicies ps
end

/-- The queries for some subject attributes: for each of them, one per subject of the request. -/
def queriesFor (r : ReqData) (ds : List Designator) : List PipQuery :=
  ds.flatMap fun d => List.replicate r.subjects.length ⟨r, d⟩

/-- The decisions that settle a combination: no later rule or policy can change them. -/
def Settles : Alg → Decision → Prop
  | .denyOverrides, d => d = .deny
  | .permitOverrides, d => d = .permit
  | .firstApplicable, d => d ≠ .notApplicable

end Xacml.Spec
