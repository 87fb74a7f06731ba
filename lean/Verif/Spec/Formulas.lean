import Verif.Spec.Semantics

/-!
# Specification: targets as formulas of propositional logic
-/
namespace Xacml.Spec
open Xacml

/-- What a section of a target says, its match elements taken as propositions: one of the alternatives,
unless there are none. -/
def SectionSays (holds : Match → Prop) (cs : List TargetChild) : Prop :=
  cs = [] ∨ ∃ c ∈ cs, ∀ m ∈ c.matches_, holds m

/-- What a target says: what its sections say. -/
def TargetSays (holds : Match → Prop) : Option Target → Prop
  | none => True
  | some t => SectionSays holds t.subjects ∧ SectionSays holds t.resources ∧ SectionSays holds t.actions ∧
      SectionSays holds t.environments

/-- The target contains the match element. -/
def ContainsMatch (t : Option Target) (m : Match) : Prop := ∃ u, t = some u ∧ m ∈ allMatches u

/-- The targets contain the same match elements, and are logically equivalent. -/
def SameTarget (t t' : Option Target) : Prop :=
  (∀ m, ContainsMatch t m ↔ ContainsMatch t' m) ∧ ∀ holds, TargetSays holds t ↔ TargetSays holds t'

/-- The same rule with a target that says the same. -/
def SameRuleTarget (a b : Rule) : Prop := a.effect = b.effect ∧ a.condition = b.condition ∧ SameTarget a.target b.target

mutual
/-- The same policy with targets that say the same, at any depth. -/
inductive SameTargets : PolicyNode → PolicyNode → Prop
  | policy {h h' rs rs'} : h.alg = h'.alg → SameTarget h.target h'.target → Each SameRuleTarget rs rs' →
      SameTargets (.policy h rs) (.policy h' rs')
  | policySet {h h' ps ps'} : h.alg = h'.alg → SameTarget h.target h'.target → AllSameTargets ps ps' →
      SameTargets (.policySet h ps) (.policySet h' ps')
/-- The same for lists of policies. -/
inductive AllSameTargets : List PolicyNode → List PolicyNode → Prop
  | nil : AllSameTargets [] []
  | cons {p p' ps ps'} : SameTargets p p' → AllSameTargets ps ps' → AllSameTargets (p :: ps) (p' :: ps')
end

end Xacml.Spec
