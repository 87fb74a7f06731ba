import Verif.Spec.Semantics
import Verif.Spec.Growth

/-!
# Specification: restricting Permit rules
-/
namespace Xacml.Spec
open Xacml

/-- The second section of a target asks for more: match elements are inserted into its entries, or it
had no entries before. -/
def SectionNarrowed (cs cs' : List TargetChild) : Prop :=
  cs = [] ∨ Each (fun c c' : TargetChild => Inserted (fun _ => True) c.matches_ c'.matches_) cs cs'

/-- The second target asks for more. -/
def TargetNarrowed : Option Target → Option Target → Prop
  | none, _ => True
  | some t, some t' => SectionNarrowed t.subjects t'.subjects ∧ SectionNarrowed t.resources t'.resources ∧
      SectionNarrowed t.actions t'.actions ∧ SectionNarrowed t.environments t'.environments
  | some _, none => False

/-- The second rule is the first one, or the first one is a Permit rule and the second asks for more: it
has got a condition if there was none, and its target may have been narrowed, if the first has property `T`. -/
def RuleRestricted (T : Rule → Prop) (rule rule' : Rule) : Prop :=
  rule' = rule ∨
  rule.effect = some .permit ∧ rule'.effect = some .permit ∧
    (rule'.condition = rule.condition ∨ rule.condition = none) ∧
    (rule'.target = rule.target ∨ TargetNarrowed rule.target rule'.target ∧ T rule)

/-- The second rule is the first one, or the first one is a Deny rule and the second asks for less: its
condition may have been dropped, and its target widened (what `TargetNarrowed` allows, backwards), if the
first has property `T`; or both are gone. -/
def RuleWidened (T : Rule → Prop) (rule rule' : Rule) : Prop :=
  rule' = rule ∨
  rule.effect = some .deny ∧ rule'.effect = some .deny ∧
    ((rule'.condition = rule.condition ∨ rule'.condition = none) ∧
      (rule'.target = rule.target ∨ TargetNarrowed rule'.target rule.target ∧ T rule) ∨
    rule'.condition = none ∧ rule'.target = none)

mutual
/-- The second policy is the first one with rules changed as `R` says anywhere in the tree. -/
inductive Rulewise (R : Rule → Rule → Prop) : PolicyNode → PolicyNode → Prop
  | policy {hdr rs rs'} : Each R rs rs' → Rulewise R (.policy hdr rs) (.policy hdr rs')
  | policySet {hdr ps ps'} : AllRulewise R ps ps' → Rulewise R (.policySet hdr ps) (.policySet hdr ps')
/-- The same for lists of policies. -/
inductive AllRulewise (R : Rule → Rule → Prop) : List PolicyNode → List PolicyNode → Prop
  | nil : AllRulewise R [] []
  | cons {p p' ps ps'} : Rulewise R p p' → AllRulewise R ps ps' → AllRulewise R (p :: ps) (p' :: ps')
end

/-- The second policy is the first one with some Permit rules restricted anywhere in the tree. -/
abbrev Restricted (T : Rule → Prop) : PolicyNode → PolicyNode → Prop := Rulewise (RuleRestricted T)

/-- The second policy is the first one with some Deny rules widened anywhere in the tree. -/
abbrev Widened (T : Rule → Prop) : PolicyNode → PolicyNode → Prop := Rulewise (RuleWidened T)

end Xacml.Spec
