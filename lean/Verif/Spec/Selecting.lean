import Verif.Spec.XPath
import Verif.Spec.Sending
import Verif.Spec.Relevance

/-!
# Specification: request documents that are laid out differently

Which white space there is between the elements of a document is a matter of layout. Here is what it means that two
documents differ in nothing else, and that the paths of a policy look at nothing else.
-/
namespace Xacml.Spec
open Xacml

mutual
/-- The same elements with the same attributes and, in elements without children, the same text. Texts in other
elements and after elements may differ. -/
def Relaid : PElem → PElem → Prop
  | .mk tag attrib text _ children, e' => ∃ text' tail' children', e' = .mk tag attrib text' tail' children' ∧
      (children = [] → text' = text) ∧ RelaidAll children children'
def RelaidAll : List PElem → List PElem → Prop
  | [], l' => l' = []
  | e :: l, l' => ∃ e' k', l' = e' :: k' ∧ Relaid e e' ∧ RelaidAll l k'
end

/-- All elements with a tag as the test says are without children. -/
def LeafNames (root : PElem) (n : NameTest) : Prop := ∀ q, n.accepts root q = true → childrenAt root q = []

/-- A predicate of a step with the name test `n` compares texts of elements without children only. -/
def Pred.OnLeaves (root : PElem) (n : NameTest) : Pred → Prop
  | .childIs m _ | .childNot m _ => LeafNames root m
  | .textIs _ | .textNot _ => LeafNames root n
  | _ => True

def Step.OnLeaves (root : PElem) : Step → Prop
  | .child n ps | .deep n ps => ∀ pr ∈ ps, pr.OnLeaves root n
  | _ => True

/-- A path looks at texts of elements without children only, on its way and at its end. -/
def OnLeaves (root : PElem) (ss : List Step) : Prop :=
  (∀ s ∈ ss, s.OnLeaves root) ∧ ∀ q, PathLeads root ss [] q → childrenAt root q = []

/-- All selectors of a policy have such paths. -/
def SelectsLeaves (root : PElem) (p : PolicyNode) : Prop :=
  ∀ s, InPolicy (.selector s) p → ∃ ss, ss ≠ [] ∧ PathOk ss ∧ s.path = some (pathText ss) ∧ OnLeaves root ss

/-- The values in a request document (the children of the attributes of its parts) have no children. -/
def FlatValues (root : PElem) : Prop :=
  ∀ i j k t as x y cs, elemAt root [i, j] = some (.mk t as x y cs) → (splitTag t).2 = "Attribute".toList →
    childrenAt root [i, j, k] = []

/-! ## Sending -/

/-- A text with no characters in it is none. -/
def someText : Option Chars → Option Chars
  | some (c :: cs) => some (c :: cs)
  | _ => none

mutual
/-- The tree that the receiver's parser makes. -/
def parsedTree : PElem → PElem
  | .mk tag attrib text tail children => .mk tag attrib (someText text) (someText tail) (parsedTrees children)
def parsedTrees : List PElem → List PElem
  | [] => []
  | c :: cs => parsedTree c :: parsedTrees cs
end

/-- `n` is printed with the registry `m`, what is printed is an XML document, and parsing it gives `e`. -/
def SentTree (m : List (Chars × Chars)) (n : XNode) (e : PElem) : Prop :=
  ∃ t out t', asTree n = some t ∧ (prettyPrint m t [] [' ', ' ', ' ', ' ']).1 = .ok out ∧ IsXml out t' ∧ e = parsedTree t'

mutual
/-- The texts of elements without children are trimmed. -/
def trimmedTree : PElem → PElem
  | .mk tag attrib text tail children =>
    .mk tag attrib (if children.isEmpty then someText (text.map stripChars) else text) tail (trimmedTrees children)
def trimmedTrees : List PElem → List PElem
  | [] => []
  | c :: cs => trimmedTree c :: trimmedTrees cs
end

end Xacml.Spec
