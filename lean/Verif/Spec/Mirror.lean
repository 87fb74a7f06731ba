import Verif.Model.Policy

/-!
# Specification: mirrored policies

The mirror image of a policy denies where the policy permits and permits where it denies.
-/
namespace Xacml.Spec
open Xacml

/-- Permit and Deny exchanged. -/
def mirrorDecision : Decision → Decision
  | .permit => .deny
  | .deny => .permit
  | .notApplicable => .notApplicable
  | .indeterminate => .indeterminate

/-- Permit and Deny exchanged. -/
def mirrorEffect : Effect → Effect
  | .permit => .deny
  | .deny => .permit

/-- Deny-overrides and permit-overrides exchanged. -/
def mirrorAlg : Alg → Alg
  | .denyOverrides => .permitOverrides
  | .permitOverrides => .denyOverrides
  | .firstApplicable => .firstApplicable

/-- The rule with the opposite effect. -/
def mirrorRule (r : Rule) : Rule := { r with effect := r.effect.map mirrorEffect }

/-- The header with the opposite combining algorithm. -/
def mirrorHeader (h : Header) : Header := { h with alg := h.alg.map mirrorAlg }

mutual
/-- The mirror image of a policy or policy set: opposite effects and opposite combining
algorithms throughout; targets and conditions stay. -/
def mirrorPolicy : PolicyNode → PolicyNode
  | .policy h rules => .policy (mirrorHeader h) (rules.map mirrorRule)
  | .policySet h ps => .policySet (mirrorHeader h) (mirrorPolicies ps)
/-- The mirror images of policies. -/
def mirrorPolicies : List PolicyNode → List PolicyNode
  | [] => []
  | p :: ps => mirrorPolicy p :: mirrorPolicies ps
end

/-- A response with every decision exchanged. -/
def mirrorResponse (r : Response) : Response :=
  { results := r.results.map fun x => { x with decision := mirrorDecision x.decision } }

/-- `p` is never Indeterminate for the request `ctx`. -/
def Settled (env : Env) (ctx : Ctx) (p : PolicyNode) : Prop :=
  ∀ w, (p.evaluate env ctx w).1 ≠ .ok .indeterminate

/-- Within `p`, every policy set combining its members by deny-overrides or permit-overrides
has only members that are never Indeterminate for the request `ctx`. Policies and
first-applicable policy sets are not restricted. -/
inductive OverridesSettled (env : Env) (ctx : Ctx) : PolicyNode → Prop
  | policy (h : Header) (rules : List Rule) : OverridesSettled env ctx (.policy h rules)
  | policySet (h : Header) (ps : List PolicyNode) :
      (∀ p ∈ ps, OverridesSettled env ctx p) →
      (h.alg = some .denyOverrides ∨ h.alg = some .permitOverrides → ∀ p ∈ ps, Settled env ctx p) →
      OverridesSettled env ctx (.policySet h ps)

end Xacml.Spec
