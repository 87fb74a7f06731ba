import Verif.Model.NsRegistry
import Verif.Spec.PrettyPrint

/-! # Histories of readers and registrations -/
namespace Xacml.Spec

/-- Registrations, as opposed to readers that come and go. -/
def byProgram : NsEvent → Bool
  | .register .. | .makeElement .. => true
  | .newReader _ | .delReader _ => false

/-- The event is the creation or deletion of `r`. -/
def concerns (r : Nat) : NsEvent → Bool
  | .newReader r' | .delReader r' => r == r'
  | .register .. | .makeElement .. => false

/-- The registry of a program that does the same but reads no policies. -/
def withoutReaders (m : List (Chars × Chars)) (h : List NsEvent) : List (Chars × Chars) :=
  (runRegistry ⟨m, []⟩ (h.filter byProgram)).current

/-- Readers are deleted in the reverse order of their creation, and nothing is registered. -/
inductive QuietReaders : List NsEvent → Prop where
  | nil : QuietReaders []
  | reader {r : Nat} {body rest : List NsEvent} : QuietReaders body → (∀ e ∈ body, concerns r e = false) → QuietReaders rest →
      QuietReaders (.newReader r :: body ++ .delReader r :: rest)

/-- The same, with registrations while no reader exists. -/
inductive NestedReaders : List NsEvent → Prop where
  | nil : NestedReaders []
  | program {e : NsEvent} {rest : List NsEvent} : byProgram e = true → NestedReaders rest → NestedReaders (e :: rest)
  | reader {r : Nat} {body rest : List NsEvent} : QuietReaders body → (∀ e ∈ body, concerns r e = false) → NestedReaders rest →
      NestedReaders (.newReader r :: body ++ .delReader r :: rest)

end Xacml.Spec
