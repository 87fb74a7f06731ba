import Verif.Model.PrettyPrint

/-!
# Qualified names as Python objects (standard library)

Simplification: texts, namespaces, local names and prefixes are strings (the setters take anything).
-/
namespace Xacml

/-- An instance of `ndg.xacml.parsers.etree.QName`: the text the base class keeps, and the three
properties. -/
structure QualName where
  text : Chars
  ns : Chars
  loc : Chars
  pfx : Option Chars
  deriving DecidableEq

/-- `QName(input, tag, prefix)`. An empty tag counts as none.
Models: ndg/xacml/parsers/etree/__init__.py:83-108 and `__init__` of `xml.etree.ElementTree.QName`. -/
def qnCreate (input : Chars) (tag pfx : Option Chars) : QualName :=
  match tag with
  | some (c :: t) => ⟨'{' :: input ++ '}' :: c :: t, input, c :: t, pfx⟩
  | _ => ⟨input, qnGetNs input, qnLocalPart input, pfx⟩

/-- An assignment to a property. -/
inductive QualNameOp where
  | setNamespaceURI (u : Chars)
  | setLocalPart (l : Chars)
  | setPrefix (p : Option Chars)
  deriving DecidableEq

/-- The text of the base class stays as it is.
Models: ndg/xacml/parsers/etree/__init__.py:117-124, 133-140, 149-156. -/
def QualName.apply (q : QualName) : QualNameOp → QualName
  | .setNamespaceURI u => { q with ns := u }
  | .setLocalPart l => { q with loc := l }
  | .setPrefix p => { q with pfx := p }

/-- A name after a history of assignments. -/
def QualName.applyAll (q : QualName) (ops : List QualNameOp) : QualName := ops.foldl QualName.apply q

/-- What a qualified name can be compared with: a name, an instance of the library's own `QName`, a
string, or an object of another type (that does not itself define comparisons with names). -/
inductive QualOperand where
  | name (q : QualName)
  | library (text : Chars)
  | str (s : Chars)
  | other
  deriving DecidableEq

/-- `__eq__`. Models: ndg/xacml/parsers/etree/__init__.py:161-174. -/
def QualName.eqMethod (q : QualName) : QualOperand → Except Exc Bool
  | .name r => .ok (decide ((q.ns, q.loc) = (r.ns, r.loc)))
  | _ => .error .typeError

/-- `__ne__`. Models: ndg/xacml/parsers/etree/__init__.py:176-183. -/
def QualName.neMethod (q : QualName) (x : QualOperand) : Except Exc Bool :=
  match q.eqMethod x with
  | .ok b => .ok (!b)
  | .error e => .error e

/-- `q == x` (`left`) or `x == q`: strings and other objects have no comparison with names, and that of a
subclass comes before that of its base class (Python data model), so it is always a method of this class. -/
def QualName.compare (q : QualName) (x : QualOperand) (left : Bool) : Except Exc Bool :=
  match left, x with
  | false, .name r => r.eqMethod (.name q)
  | _, x => q.eqMethod x

/-- `q != x` or `x != q`. -/
def QualName.differs (q : QualName) (x : QualOperand) (left : Bool) : Except Exc Bool :=
  match left, x with
  | false, .name r => r.neMethod (.name q)
  | _, x => q.neMethod x

/-- `str(q)`, inherited from `xml.etree.ElementTree.QName`; this is what is used as the tag of elements
(ndg/xacml/parsers/etree/context.py:50, 138, ...). -/
def QualName.str (q : QualName) : Chars := q.text

/-- `q <= x`, inherited from `xml.etree.ElementTree.QName`: compares texts, by code points. -/
def QualName.le (q : QualName) : QualOperand → Except Exc Bool
  | .name r => .ok (decide (q.text ≤ r.text))
  | .library t => .ok (decide (q.text ≤ t))
  | .str s => .ok (decide (q.text ≤ s))
  | .other => .error .typeError

/-- `hash(q)`: a class that defines `__eq__` and not `__hash__` has none (Python data model).
Models: ndg/xacml/parsers/etree/__init__.py:71, 161. -/
def QualName.hash (_ : QualName) : Except Exc Int := .error .typeError

end Xacml
