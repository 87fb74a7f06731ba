import Verif.Spec.Semantics
import Verif.Spec.Refactor

/-!
# Specification: the part of a policy that concerns some requests
-/
namespace Xacml.Spec
open Xacml

/-- The second list has the rules of the first, in the same order, without some that are not applicable to any of the
requests. -/
inductive RulesExcerpt (env : Env) (Q : Request → Prop) : List Rule → List Rule → Prop
  | nil : RulesExcerpt env Q [] []
  | keep {rule rs rs'} : RulesExcerpt env Q rs rs' → RulesExcerpt env Q (rule :: rs) (rule :: rs')
  | drop {rule rs rs'} : (∀ r, Q r → RuleMeans env r rule .notApplicable) → RulesExcerpt env Q rs rs' →
      RulesExcerpt env Q (rule :: rs) rs'

mutual
/-- The second policy or policy set is the first without some rules, policies and policy sets within it that are not
applicable to any of the requests. -/
inductive Excerpt (env : Env) (Q : Request → Prop) : PolicyNode → PolicyNode → Prop
  | rules {h rs rs'} : RulesExcerpt env Q rs rs' → Excerpt env Q (.policy h rs) (.policy h rs')
  | policies {h ps ps'} : PoliciesExcerpt env Q ps ps' → Excerpt env Q (.policySet h ps) (.policySet h ps')
/-- The same for the policies of a set. -/
inductive PoliciesExcerpt (env : Env) (Q : Request → Prop) : List PolicyNode → List PolicyNode → Prop
  | nil : PoliciesExcerpt env Q [] []
  | keep {p p' ps ps'} : Excerpt env Q p p' → PoliciesExcerpt env Q ps ps' → PoliciesExcerpt env Q (p :: ps) (p' :: ps')
  | drop {p ps ps'} : (∀ r, Q r → PolicyMeans env r p .notApplicable) → PoliciesExcerpt env Q ps ps' →
      PoliciesExcerpt env Q (p :: ps) ps'
end

end Xacml.Spec
