import Verif.Spec.PrettyPrint
import Verif.Model.PrettyPrintLxml

/-!
# Specification: lxml trees that pretty printing keeps

A namespace is in scope at an element if some prefix, or the default, stands for it there; inner
declarations hide outer ones.
-/
namespace Xacml.Spec
open Xacml

mutual
/-- The element tree, if there are no comments, processing instructions and entities. -/
def content : LNode → Option PElem
  | .other _ => none
  | .elem tag _ attrib text tail children => do
    let cs ← contents children
    some (.mk tag attrib text tail cs)
def contents : List LNode → Option (List PElem)
  | [] => some []
  | c :: cs => do
    let e ← content c
    let es ← contents cs
    some (e :: es)
end

/-- Namespaces that the names on one element are in. -/
def usedNames (tag : Chars) (attrib : List (Chars × Chars)) : List Chars := attribNamespaces attrib ++ [qnGetNs tag]

mutual
/-- All namespaces that are used are in scope where they are used. -/
def InScope (sc : List (Option Chars × Chars)) : LNode → Prop
  | .other _ => True
  | .elem tag nsDef attrib _ _ children =>
    (∀ u ∈ usedNames tag attrib, ∃ p, (nsDef ++ sc).lookup p = some u) ∧ InScopeAll (nsDef ++ sc) children
def InScopeAll (sc : List (Option Chars × Chars)) : List LNode → Prop
  | [] => True
  | c :: cs => InScope sc c ∧ InScopeAll sc cs
end

mutual
/-- All declarations in the tree. -/
def allDeclarations : LNode → List (Option Chars × Chars)
  | .other _ => []
  | .elem _ nsDef _ _ _ children => nsDef ++ allDeclarationsAll children
def allDeclarationsAll : List LNode → List (Option Chars × Chars)
  | [] => []
  | c :: cs => allDeclarations c ++ allDeclarationsAll cs
end

/-- Every prefix stands for one namespace throughout and every namespace has one prefix throughout; the default
namespace counts as the prefix `None`. -/
def Consistent (decls : List (Option Chars × Chars)) : Prop :=
  let l := (xmlName, xmlUri) :: decls.map fun d => (d.1.getD "None".toList, d.2)
  (∀ x ∈ l, NCName x.1 ∧ x.1 ≠ xmlnsName) ∧ ∀ x ∈ l, ∀ y ∈ l, x.1 = y.1 ↔ x.2 = y.2

end Xacml.Spec
