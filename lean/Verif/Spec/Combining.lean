import Verif.Model.Policy

/-!
# Specification of the combining algorithms (XACML 2.0, appendix C)

Written on the list of the children's decisions; no loop, no flags.
-/
namespace Xacml.Spec
open Xacml

/-- Running computations one after the other, starting in world `w`, gives results `as`
(no exception) and ends in world `w'`. -/
inductive Runs {α : Type} : List (EvalM α) → World → List α → World → Prop
  | nil (w) : Runs [] w [] w
  | cons {c cs w a w1 as w2} : c w = (.ok a, w1) → Runs cs w1 as w2 → Runs (c :: cs) w (a :: as) w2

/-- Running computations one after the other, starting in world `w`, stops with exception `e`
in world `w'`: some computation raises and all those before it succeed. -/
inductive Fails {α : Type} : List (EvalM α) → World → Exc → World → Prop
  | head {c cs w e w1} : c w = (.error e, w1) → Fails (c :: cs) w e w1
  | tail {c cs w a w1 e w2} : c w = (.ok a, w1) → Fails cs w1 e w2 → Fails (c :: cs) w e w2

/-- Number of children evaluated when evaluation stops right after the first decision
satisfying `stop`. -/
def evaluatedCount (stop : Decision → Bool) : List Decision → Nat
  | [] => 0
  | d :: ds => if stop d then 1 else 1 + evaluatedCount stop ds

/-- C.1, rules: `es` are the rules' effects and `ds` their decisions, in the same order.
A rule with effect Deny that is Indeterminate is a potential Deny. -/
def ruleDenyOverrides (es : List (Option Effect)) (ds : List Decision) : Decision :=
  if .deny ∈ ds then .deny
  else if (some .deny, .indeterminate) ∈ es.zip ds then .indeterminate
  else if .permit ∈ ds then .permit
  else if .indeterminate ∈ ds then .indeterminate
  else .notApplicable

/-- C.3, rules. -/
def rulePermitOverrides (es : List (Option Effect)) (ds : List Decision) : Decision :=
  if .permit ∈ ds then .permit
  else if (some .permit, .indeterminate) ∈ es.zip ds then .indeterminate
  else if .deny ∈ ds then .deny
  else if .indeterminate ∈ ds then .indeterminate
  else .notApplicable

/-- First applicable: the first decision other than NotApplicable, if any. -/
def firstApplicable (ds : List Decision) : Decision :=
  (ds.find? (· ≠ .notApplicable)).getD .notApplicable

/-- C.2, policies: an Indeterminate child counts as Deny. -/
def policyDenyOverrides (ds : List Decision) : Decision :=
  if .deny ∈ ds ∨ .indeterminate ∈ ds then .deny
  else if .permit ∈ ds then .permit
  else .notApplicable

/-- C.4, policies. -/
def policyPermitOverrides (ds : List Decision) : Decision :=
  if .permit ∈ ds then .permit
  else if .deny ∈ ds then .deny
  else if .indeterminate ∈ ds then .indeterminate
  else .notApplicable

/-- Rule combining as a whole. -/
def combineRules (alg : Alg) (es : List (Option Effect)) (ds : List Decision) : Decision :=
  match alg with
  | .denyOverrides => ruleDenyOverrides es ds
  | .permitOverrides => rulePermitOverrides es ds
  | .firstApplicable => firstApplicable ds

/-- Policy combining as a whole. -/
def combinePolicies (alg : Alg) (ds : List Decision) : Decision :=
  match alg with
  | .denyOverrides => policyDenyOverrides ds
  | .permitOverrides => policyPermitOverrides ds
  | .firstApplicable => firstApplicable ds

end Xacml.Spec
