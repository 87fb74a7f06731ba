import Verif.Model.PrettyPrint

/-!
# Pretty printing of lxml elements

The variant of `Model/PrettyPrint` for `Config.use_lxml`: prefixes are looked up in the element's `nsmap`
and there is no registry.
-/
namespace Xacml

/-- A node of an lxml tree. `nsDef` are the namespace declarations written on the element itself (`none` is the
default namespace). Simplification: comments, processing instructions and entities only keep their tail. -/
inductive LNode where
  | elem (tag : Chars) (nsDef : List (Option Chars × Chars)) (attrib : List (Chars × Chars)) (text tail : Option Chars)
      (children : List LNode)
  | other (tail : Option Chars)

/-- `tail`. -/
def LNode.tail : LNode → Option Chars
  | .elem _ _ _ _ t _ => t
  | .other t => t

/-- What lxml's `nsmap` makes of the declarations of an element and its ancestors, innermost first: a prefix that is
there already is not added again. Models: `elem.nsmap` of lxml, used in ndg/xacml/utils/etree.py:169. -/
def nsmapOf : List (Option Chars × Chars) → List (Option Chars × Chars)
  | [] => []
  | x :: xs => x :: (nsmapOf xs).filter (fun y => y.1 != x.1)

/-- `KeyError` of a namespace that is not in `nsmap`; `TypeError` of a tag that is not a string. -/
inductive LPrintExc where
  | keyError | typeError
  deriving DecidableEq

/-- `"%s" % prefix`; the prefix of the default namespace is `None`. Models: ndg/xacml/utils/etree.py:125, 138. -/
def prefixText : Option Chars → Chars
  | some p => p
  | none => "None".toList

/-- `_getNamespacePrefix` for lxml. Models: ndg/xacml/utils/etree.py:167-173. -/
def lxmlPrefix (chain : List (Option Chars × Chars)) (uri : Chars) : Except LPrintExc Chars :=
  match (nsmapOf chain).find? (fun x => x.2 == uri) with
  | some x => .ok (prefixText x.1)
  | none => .error .keyError

/-- The loop over the attributes; also gives the new `declaredNss`. Models: ndg/xacml/utils/etree.py:117-133. -/
def printAttribsLxml (chain : List (Option Chars × Chars)) :
    List (Chars × Chars) → List Chars → Except LPrintExc (Chars × List Chars)
  | [], d => pure ([], d)
  | (a, v) :: as, d =>
    if qnGetNs a = [] then do
      let (rest, d') ← printAttribsLxml chain as d
      pure (printAttr a v ++ rest, d')
    else do
      let p ← lxmlPrefix chain (qnGetNs a)
      let (rest, d') ← printAttribsLxml chain as (declare d (qnGetNs a))
      pure (nsDeclaration d p (qnGetNs a) ++ printAttr (qualified p (qnLocalPart a)) v ++ rest, d')

mutual
/-- `_PrettyPrint.__call__` with lxml. The tag of a comment is a function: `re.search` raises `TypeError`.
Models: ndg/xacml/utils/etree.py:103-165. -/
def printLxml (indent space : Chars) (chain : List (Option Chars × Chars)) (declared : List Chars) :
    LNode → Except LPrintExc Chars
  | .other _ => .error .typeError
  | .elem tag nsDef attrib text _ children => do
    let (strAttrib, d) ← printAttribsLxml (nsDef ++ chain) attrib declared
    let p ← lxmlPrefix (nsDef ++ chain) (qnGetNs tag)
    let name := qualified p (qnLocalPart tag)
    let start := indent ++ '<' :: name ++ nsDeclaration d p (qnGetNs tag) ++ strAttrib ++ '>' :: estrip text
    match children with
    | [] => pure (start ++ '<' :: '/' :: name ++ ['>'])
    | c :: cs => do
      let body ← printLxmlAll (indent ++ space) (nsDef ++ chain) (declare d (qnGetNs tag)) (c :: cs)
      let last := ((c :: cs).getLast (List.cons_ne_nil c cs)).tail
      pure (start ++ body ++ '\n' :: indent ++ estrip last ++ '<' :: '/' :: name ++ ['>'])
/-- The loop over the children. Models: ndg/xacml/utils/etree.py:153-157. -/
def printLxmlAll (indent : Chars) (chain : List (Option Chars × Chars)) (declared : List Chars) :
    List LNode → Except LPrintExc Chars
  | [] => pure []
  | c :: cs => do
    let r ← printLxml indent fourSpaces chain declared c
    let rest ← printLxmlAll indent chain declared cs
    pure ('\n' :: r ++ rest)
end

/-- `prettyPrint(elem, indent, space=space)` with lxml; `outer` are the declarations of the element's ancestors,
innermost first. Models: ndg/xacml/utils/etree.py:48-73. -/
def prettyPrintLxml (outer : List (Option Chars × Chars)) (e : LNode) (indent space : Chars) : Except LPrintExc Chars :=
  printLxml indent space outer [] e

end Xacml
