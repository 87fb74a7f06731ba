import Verif.Spec.Defaults

/-!
# Specification: rules and policies that can have no influence
-/
namespace Xacml.Spec
open Xacml

/-- The effect `e` goes before everything else under the algorithm. -/
def Prevails (e : Effect) (alg : Alg) : Prop := e = .deny ∧ alg = .denyOverrides ∨ e = .permit ∧ alg = .permitOverrides

/-- The policy or policy set has the effect `e` for every request: it has no target, and a rule, policy or policy set
that has this effect for every request comes first under first-applicable, or is anywhere if the effect prevails. -/
inductive Always (e : Effect) : PolicyNode → Prop
  | firstRule {h rule rs} : h.target = none → h.alg = some .firstApplicable → CatchAll e rule → Always e (.policy h (rule :: rs))
  | someRule {h alg rule rs} : h.target = none → h.alg = some alg → Prevails e alg → CatchAll e rule → rule ∈ rs →
      Always e (.policy h rs)
  | firstPolicy {h p ps} : h.target = none → h.alg = some .firstApplicable → Always e p → Always e (.policySet h (p :: ps))
  | somePolicy {h alg p ps} : h.target = none → h.alg = some alg → Prevails e alg → Always e p → p ∈ ps →
      Always e (.policySet h ps)

mutual
/-- The second policy is the first one without rules and policies that can have no influence: those after one that has
its effect for every request under first-applicable, and all others beside one whose effect prevails; anywhere in the
tree, any number of times. -/
inductive DeadDropped : PolicyNode → PolicyNode → Prop
  | same {p} : DeadDropped p p
  | rulesAfter {h e rule pre post} : h.alg = some .firstApplicable → CatchAll e rule →
      DeadDropped (.policy h (pre ++ rule :: post)) (.policy h (pre ++ [rule]))
  | rulesBeside {h alg e rule rs} : h.alg = some alg → Prevails e alg → CatchAll e rule → rule ∈ rs →
      DeadDropped (.policy h rs) (.policy h [rule])
  | policiesAfter {h e p pre post} : h.alg = some .firstApplicable → Always e p →
      DeadDropped (.policySet h (pre ++ p :: post)) (.policySet h (pre ++ [p]))
  | policiesBeside {h alg e p ps} : h.alg = some alg → Prevails e alg → Always e p → p ∈ ps →
      DeadDropped (.policySet h ps) (.policySet h [p])
  | within {h ps ps'} : AllDeadDropped ps ps' → DeadDropped (.policySet h ps) (.policySet h ps')
  | trans {p q s} : DeadDropped p q → DeadDropped q s → DeadDropped p s
/-- The same for the policies of a set, place by place. -/
inductive AllDeadDropped : List PolicyNode → List PolicyNode → Prop
  | nil : AllDeadDropped [] []
  | cons {p p' ps ps'} : DeadDropped p p' → AllDeadDropped ps ps' → AllDeadDropped (p :: ps) (p' :: ps')
end

end Xacml.Spec
