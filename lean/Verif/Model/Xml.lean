import Verif.Model.Str

/-!
# XML element trees as the readers see them

`XNode` is the tree an ElementTree implementation hands to the readers; `Doc` is the XML content it was
parsed from. `lxmlTree` and `stdTree` describe the two supported implementations (outside the package).
-/
namespace Xacml

/-- A node of an ElementTree tree: an element with its tag, attributes, the text before its first child
and its children, or a child whose `tag` is not a string (comment, processing instruction, entity).
Models: the Element interface used in ndg/xacml/parsers/etree (tag, attrib, text, iteration, len).
Simplification: `tail` is not represented, the readers never use it. -/
inductive XNode where
  | elem (tag : String) (attrib : List (String × String)) (text : Option String) (children : List XNode)
  | other

/-- `isinstance(node.tag, str)`. Models: ndg/xacml/parsers/etree/__init__.py:64-66. -/
def XNode.isElem : XNode → Bool
  | .elem .. => true
  | .other => false

/-- `getElementChildren`. Models: ndg/xacml/parsers/etree/__init__.py:59-67. -/
def elementChildren (l : List XNode) : List XNode := l.filter XNode.isElem

/-- `list(node)`. -/
def XNode.children : XNode → List XNode
  | .elem _ _ _ cs => cs
  | .other => []

/-- `node.text`. -/
def XNode.text : XNode → Option String
  | .elem _ _ t _ => t
  | .other => none

/-- `node.attrib.get(name)`. -/
def XNode.attr (n : XNode) (k : String) : Option String :=
  match n with
  | .elem _ a _ _ => dictGet a k
  | .other => none

/-- `tag.rsplit('}', 1)[-1]`. Models: ndg/xacml/parsers/etree/__init__.py:81. -/
def localPart (tag : String) : String :=
  String.ofList (tag.toList.reverse.takeWhile (· != '}')).reverse

/-- `QName.getLocalPart(node.tag)`; never called on a node that is not an element, save in the policy
defaults reader (see `readPolicyDefaults`). -/
def XNode.name : XNode → String
  | .elem tag _ _ _ => localPart tag
  | .other => ""

/-! ## Documents -/

/-- XML content: elements, character data, and comments or processing instructions. -/
inductive Doc where
  | elem (tag : String) (attrib : List (String × String)) (content : List Doc)
  | text (s : String)
  | comment (s : String)

/-- The character data before the first node that is not character data. -/
def leadingText : List Doc → List String
  | .text s :: l => s :: leadingText l
  | _ => []

/-- `Element.text`: `None` if there is no text. -/
def textOf (l : List String) : Option String :=
  let s := l.foldr (· ++ ·) ""
  if s = "" then none else some s

mutual
/-- The tree lxml builds: comments and processing instructions are children.
Models: lxml.etree, used if installed (ndg/xacml/__init__.py Config, importElementTree). -/
def Doc.lxmlTree : Doc → XNode
  | .elem tag a c => .elem tag a (textOf (leadingText c)) (Doc.lxmlChildren c)
  | .text _ => .other
  | .comment _ => .other
/-- The children of an lxml element. -/
def Doc.lxmlChildren : List Doc → List XNode
  | [] => []
  | .text _ :: l => Doc.lxmlChildren l
  | d :: l => d.lxmlTree :: Doc.lxmlChildren l
end

mutual
/-- A document without its comments and processing instructions. -/
def Doc.stripComments : Doc → Doc
  | .elem tag a c => .elem tag a (Doc.stripList c)
  | .text s => .text s
  | .comment s => .comment s
/-- `stripComments` on content. -/
def Doc.stripList : List Doc → List Doc
  | [] => []
  | .comment _ :: l => Doc.stripList l
  | d :: l => d.stripComments :: Doc.stripList l
end

/-- The tree the standard library builds: its parser drops comments and processing instructions and
joins the text around them. Models: xml.etree.ElementTree, used when lxml is not installed. -/
def Doc.stdTree (d : Doc) : XNode := d.stripComments.lxmlTree

end Xacml
