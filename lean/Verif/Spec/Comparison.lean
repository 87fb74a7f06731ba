import Verif.Model.Comparison

/-! # The values of decisions and effects -/
namespace Xacml.Spec

/-- The four decisions; the two effects. -/
def vocabulary : Vocab → List String
  | .decision => ["Permit", "Deny", "Indeterminate", "NotApplicable"]
  | .ruleEffect | .obligationEffect => ["Permit", "Deny"]

/-- What an operand says, in comparison with an instance of a class: the value of an instance of the same
class, a string of the vocabulary. -/
inductive Says (c : Vocab) : Operand → String → Prop where
  | term {t : Term} : t.cls = c → Says c (.term t) t.value
  | str {s : String} : s ∈ vocabulary c → Says c (.str s) s

/-- Instances a program can get hold of. -/
def Instance (t : Term) : Prop := ∃ x xs, t.cls.history x xs = some t

end Xacml.Spec
