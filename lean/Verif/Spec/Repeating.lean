import Verif.Model.Policy

/-!
# Specification: policies that say the same, possibly several times
-/
namespace Xacml.Spec
open Xacml

/-- The combining algorithm is deny-overrides or permit-overrides. -/
def Overriding (h : Header) : Prop := h.alg = some .denyOverrides ∨ h.alg = some .permitOverrides

/-- The second policy says what the first says: it results from it by repeating, reordering and
merging equal rules and members where an override algorithm combines them, by repeating or
dropping later repetitions where the first applicable one counts, and by doing so anywhere
inside policy sets. Every rule that is moved has an effect. -/
inductive SaysTheSame : PolicyNode → PolicyNode → Prop
  | refl (p) : SaysTheSame p p
  | symm {p q} : SaysTheSame p q → SaysTheSame q p
  | trans {p q r} : SaysTheSame p q → SaysTheSame q r → SaysTheSame p r
  | rules (h : Header) (rules rules' : List Rule) : Overriding h → (∀ r ∈ rules, r.effect ≠ none) →
      (∀ r, r ∈ rules ↔ r ∈ rules') → SaysTheSame (.policy h rules) (.policy h rules')
  | members (h : Header) (ps ps' : List PolicyNode) : Overriding h → (∀ p, p ∈ ps ↔ p ∈ ps') →
      SaysTheSame (.policySet h ps) (.policySet h ps')
  | laterRule (h : Header) (before after : List Rule) (r : Rule) : h.alg = some .firstApplicable → r ∈ before →
      SaysTheSame (.policy h (before ++ r :: after)) (.policy h (before ++ after))
  | laterMember (h : Header) (before after : List PolicyNode) (p : PolicyNode) : h.alg = some .firstApplicable →
      p ∈ before → SaysTheSame (.policySet h (before ++ p :: after)) (.policySet h (before ++ after))
  | inside (h : Header) (before after : List PolicyNode) (p q : PolicyNode) : SaysTheSame p q →
      SaysTheSame (.policySet h (before ++ p :: after)) (.policySet h (before ++ q :: after))

end Xacml.Spec
