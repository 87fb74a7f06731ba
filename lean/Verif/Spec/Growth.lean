import Verif.Model.Policy

/-!
# Specification: adding rules to policies
-/
namespace Xacml.Spec
open Xacml

/-- `l'` is `l` with elements having property `P` inserted anywhere. -/
inductive Inserted {α : Type} (P : α → Prop) : List α → List α → Prop
  | nil : Inserted P [] []
  | keep {a l l'} : Inserted P l l' → Inserted P (a :: l) (a :: l')
  | add {a l l'} : P a → Inserted P l l' → Inserted P l (a :: l')

mutual
/-- The second policy is the first one with rules of effect `e` inserted into policies anywhere in the tree. -/
inductive RulesAdded (e : Effect) : PolicyNode → PolicyNode → Prop
  | policy {hdr rs rs'} : Inserted (fun r : Rule => r.effect = some e) rs rs' →
      RulesAdded e (.policy hdr rs) (.policy hdr rs')
  | policySet {hdr ps ps'} : AllRulesAdded e ps ps' → RulesAdded e (.policySet hdr ps) (.policySet hdr ps')
/-- The same for lists of policies. -/
inductive AllRulesAdded (e : Effect) : List PolicyNode → List PolicyNode → Prop
  | nil : AllRulesAdded e [] []
  | cons {p p' ps ps'} : RulesAdded e p p' → AllRulesAdded e ps ps' → AllRulesAdded e (p :: ps) (p' :: ps')
end

end Xacml.Spec
