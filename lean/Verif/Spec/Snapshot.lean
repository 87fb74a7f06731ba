import Verif.Spec.Finder

/-!
# Specification: documents that change while a policy is loaded
-/
namespace Xacml.Spec
open Xacml

/-- What was answered to a list of fetches (the last one first) after the fetches in `past`. The outcome of a fetch may
depend on all fetches before it, so that a URL may give another document each time. -/
def answers (fetch : Fetch) (past : List String) : List String → List (String × Except Exc XNode)
  | [] => []
  | u :: earlier => (u, fetch (earlier ++ past) u) :: answers fetch past earlier

/-- The kind and the identifier a document declares. -/
def docKey (n : XNode) : Option (Kind × Option String) :=
  if n.name = "Policy" then some (.policy, n.attr "PolicyId")
  else if n.name = "PolicySet" then some (.policySet, n.attr "PolicySetId")
  else none

/-- Documents may be edited at any time but keep their kind and identifier. -/
def KeepsIds (fetch : Fetch) : Prop :=
  ∀ past past' u d d', fetch past u = .ok d → fetch past' u = .ok d' → docKey d = docKey d'

/-- Documents that never change. -/
def unchanging (F : String → Except Exc XNode) : Fetch := fun _ u => F u

end Xacml.Spec
