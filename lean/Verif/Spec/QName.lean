import Verif.Model.QName
import Verif.Spec.PrettyPrint

/-!
# Qualified names: specification
-/
namespace Xacml.Spec

/-- The arguments name the expanded name of namespace `u` and local name `l`: they are `u` and `l`, or
the text `{u}l`, or, in no namespace, the text `l`. Namespaces have no braces or newlines, local names are XML names. -/
inductive Names : Chars → Option Chars → Chars → Chars → Prop where
  | two {u l} (hu : u ≠ [] ∧ '{' ∉ u ∧ '}' ∉ u ∧ '\n' ∉ u) (hl : NCName l) : Names u (some l) u l
  | one {u l} (hu : u ≠ [] ∧ '{' ∉ u ∧ '}' ∉ u ∧ '\n' ∉ u) (hl : NCName l) : Names ('{' :: u ++ '}' :: l) none u l
  | bare {l} (hl : NCName l) : Names l none [] l

/-- What Python's `(?<=\{).+(?=\})` can match in a string: non-empty text within a line, after an opening and before a
closing brace. -/
def BraceMatch (s pre m post : Chars) : Prop :=
  s = pre ++ '{' :: (m ++ '}' :: post) ∧ m ≠ [] ∧ '\n' ∉ m

/-- The match `re.search` finds: the leftmost one, and of these the longest. -/
def FirstMatch (s m : Chars) : Prop :=
  ∃ pre post, BraceMatch s pre m post ∧
    ∀ pre' m' post', BraceMatch s pre' m' post' → pre.length < pre'.length ∨ (pre.length = pre'.length ∧ m'.length ≤ m.length)

/-- The value last assigned, or the initial one. -/
def lastGiven (pick : QualNameOp → Option Chars) (first : Chars) (ops : List QualNameOp) : Chars :=
  (ops.filterMap pick).getLast?.getD first

/-- Assignments of the namespace. -/
def pickNamespace : QualNameOp → Option Chars
  | .setNamespaceURI u => some u
  | _ => none

/-- Assignments of the local name. -/
def pickLocal : QualNameOp → Option Chars
  | .setLocalPart l => some l
  | _ => none

end Xacml.Spec
