import Verif.Spec.Semantics

/-!
# Specification: default decisions
-/
namespace Xacml.Spec
open Xacml

/-- A rule with effect `e` for every request. -/
def CatchAll (e : Effect) (rule : Rule) : Prop := rule.effect = some e ∧ rule.target = none ∧ rule.condition = none

/-- The algorithm lets everything else go before the effect `e` coming last. -/
def ComesLast (e : Effect) (alg : Alg) : Prop :=
  alg = .firstApplicable ∨ e = .deny ∧ alg = .permitOverrides ∨ e = .permit ∧ alg = .denyOverrides

/-- The second policy is the first one with a default: a last rule, or a last policy with just this rule, that has the
effect `e` for every request, under an algorithm that lets everything else go before. -/
inductive WithDefault (e : Effect) : PolicyNode → PolicyNode → Prop
  | policy {h alg rs rule} : h.alg = some alg → ComesLast e alg → CatchAll e rule →
      WithDefault e (.policy h rs) (.policy h (rs ++ [rule]))
  | policySet {h alg ps h' rule} : h.alg = some alg → ComesLast e alg → CatchAll e rule → h'.target = none → h'.alg ≠ none →
      WithDefault e (.policySet h ps) (.policySet h (ps ++ [.policy h' [rule]]))

/-- The target of a policy or policy set. -/
def ownTarget : PolicyNode → Option Target
  | .policy h _ => h.target
  | .policySet h _ => h.target

/-- The combining algorithm of a policy or policy set. -/
def ownAlg : PolicyNode → Option Alg
  | .policy h _ => h.alg
  | .policySet h _ => h.alg

/-- Without a target, the policy contains a rule for every request; without a target, the policy set contains such a
policy or policy set. -/
inductive HasCatchAll : PolicyNode → Prop
  | policy {h rs rule e} : h.target = none → rule ∈ rs → CatchAll e rule → HasCatchAll (.policy h rs)
  | policySet {h ps p} : h.target = none → p ∈ ps → HasCatchAll p → HasCatchAll (.policySet h ps)

end Xacml.Spec
