import Verif.Spec.Semantics

/-!
# Specification: rewriting policies
-/
namespace Xacml.Spec
open Xacml

/-- Two targets do not both restrict the same section. -/
def Separate (t u : Target) : Prop :=
  (t.subjects = [] ∨ u.subjects = []) ∧ (t.resources = [] ∨ u.resources = []) ∧
  (t.actions = [] ∨ u.actions = []) ∧ (t.environments = [] ∨ u.environments = [])

/-- Both targets written as one. -/
def joined (t : Target) : Option Target → Target
  | none => t
  | some u =>
    { subjects := t.subjects ++ u.subjects, resources := t.resources ++ u.resources
      actions := t.actions ++ u.actions, environments := t.environments ++ u.environments }

/-- A rule that is restricted by one more target. -/
def ruleWithin (t : Target) (rule : Rule) : Rule := { rule with target := some (joined t rule.target) }

/-- The target of a policy or policy set. -/
def targetOf : PolicyNode → Option Target
  | .policy hdr _ => hdr.target
  | .policySet hdr _ => hdr.target

/-- A policy or policy set that is restricted by one more target. -/
def policyWithin (t : Target) : PolicyNode → PolicyNode
  | .policy hdr rules => .policy { hdr with target := some (joined t hdr.target) } rules
  | .policySet hdr ps => .policySet { hdr with target := some (joined t hdr.target) } ps

/-- A target with another list of alternatives for one section. -/
def withSection (t : Target) (cs : List TargetChild) : Category → Target
  | .subject => { t with subjects := cs }
  | .resource => { t with resources := cs }
  | .action => { t with actions := cs }
  | .environment => { t with environments := cs }

/-- A policy or policy set with another target. -/
def policyFor (t : Target) : PolicyNode → PolicyNode
  | .policy hdr rules => .policy { hdr with target := some t } rules
  | .policySet hdr ps => .policySet { hdr with target := some t } ps

/-- Groups of rules as policies with the same combining algorithm. -/
def asPolicies (hdr : Header) (groups : List (List Rule)) : List PolicyNode :=
  groups.map fun rules => .policy { hdr with target := none } rules

/-- The PDP answers with this decision and status ok. -/
def Answers (env : Env) (p : PolicyNode) (r : Request) (w : World) (d : Decision) : Prop :=
  (pdpEvaluate env (some p) (some r) w).1 = .ok { results := [{ decision := d, status := .ok }] }

end Xacml.Spec
