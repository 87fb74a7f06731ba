import Verif.Model.PrintThreads
import Verif.Spec.PrettyPrint

/-!
# Specification: printing in several threads
-/
namespace Xacml.Spec
open Xacml

/-- Thread `i` has returned or raised `x`. -/
def Printed (s : Printers) (i : Nat) (x : Except Exc Chars) : Prop := s.threads[i]? = some (.done x)

/-- What a job prints. -/
def document : PrintJob → Option PElem
  | .print e => some e
  | .write _ _ _ e => some e
  | .read => none

/-- All namespaces of the document have prefixes in the registry. -/
def HasPrefixes (m : List (Chars × Chars)) (e : PElem) : Prop := ∀ u ∈ namespaces e, u ≠ [] ∧ ∃ p, m.lookup u = some p

/-- Whoever writes elements in a namespace of the document uses the registered prefix. -/
def SamePrefixes (m : List (Chars × Chars)) (e : PElem) (jobs : List PrintJob) : Prop :=
  ∀ uri p count e', PrintJob.write uri p count e' ∈ jobs → uri ∈ namespaces e → m.lookup uri = some p

/-- An infinite schedule that never stops giving turns to thread `i`. -/
def FairFor (i : Nat) (σ : Nat → Nat) : Prop := ∀ n, ∃ m, n ≤ m ∧ σ m = i

end Xacml.Spec
