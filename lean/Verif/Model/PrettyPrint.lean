import Verif.Model.Readers

/-!
# Pretty printing of ElementTree elements (standard library)

Simplifications: strings are lists of characters; texts, tails and attribute values are strings;
there are no comments or processing instructions in the tree (the standard library's parser drops
them); the variant for lxml is in `Model/PrettyPrintLxml`.
-/
namespace Xacml

abbrev Chars := List Char

/-- An ElementTree element: tag, attributes, text, tail, children. -/
inductive PElem where
  | mk (tag : Chars) (attrib : List (Chars × Chars)) (text tail : Option Chars) (children : List PElem)

/-- `elem.tail`. -/
def PElem.tail : PElem → Option Chars
  | .mk _ _ _ t _ => t

/-- What is matched right after a `{`: up to the last `}` of the line, at least one character.
Models: ndg/xacml/parsers/etree/__init__.py:77-79 (`.+(?=\})`, which is greedy; `.` is not a newline). -/
def nsAfterBrace (rest : Chars) : Option Chars :=
  match (((rest.takeWhile (· != '\n')).reverse.dropWhile (· != '}')).drop 1).reverse with
  | [] => none
  | l => some l

/-- `QName.getNs`. Models: ndg/xacml/parsers/etree/__init__.py:75-79 (`re.search` tries the positions from
left to right; `str()` is the empty string). -/
def qnGetNs : Chars → Chars
  | [] => []
  | c :: rest =>
    if c = '{' then
      match nsAfterBrace rest with
      | some l => l
      | none => qnGetNs rest
    else qnGetNs rest

/-- `QName.getLocalPart`. Models: ndg/xacml/parsers/etree/__init__.py:81. -/
def qnLocalPart (tag : Chars) : Chars := (tag.reverse.takeWhile (· != '}')).reverse

/-- `str.strip` (Python built-in). -/
def stripChars (s : Chars) : Chars := ((s.dropWhile isPySpace).reverse.dropWhile isPySpace).reverse

/-- `estrip`. Models: ndg/xacml/utils/etree.py:88-101. -/
def estrip : Option Chars → Chars
  | none => []
  | some s => stripChars s

/-- `KeyError`. -/
inductive PrintExc where
  | keyError
  deriving DecidableEq

/-- `ElementTree._namespace_map` (namespace to prefix) and `mappedPrefixes`. -/
structure PrintState where
  nsMap : List (Chars × Chars)
  mapped : List Chars
  deriving DecidableEq

/-- Exceptions keep the changes made so far. -/
abbrev PrintM := EStateM PrintExc PrintState

/-- `"ns%d" % i`. -/
def nsName (i : Nat) : Chars := 'n' :: 's' :: (toString i).toList

/-- `d.get(k)`. -/
def nsGet (m : List (Chars × Chars)) (k : Chars) : Option Chars := m.lookup k

/-- `_allocNsPrefix`, `_getNamespacePrefix`. Models: ndg/xacml/utils/etree.py:175-202. The key is
not in the map when it is added. -/
def allocNsPrefix (uri : Chars) : PrintM Chars := do
  let s ← get
  match nsGet s.nsMap uri with
  | some p => pure p
  | none =>
    match ((List.range 256).map nsName).find? (fun p => !s.mapped.contains p) with
    | some p => do
      set { nsMap := s.nsMap ++ [(uri, p)], mapped := s.mapped ++ [p] : PrintState }
      pure p
    | none => throw .keyError

/-- ` name="value"`. Models: ndg/xacml/utils/etree.py:131. -/
def printAttr (name value : Chars) : Chars := ' ' :: name ++ '=' :: '"' :: value ++ ['"']

/-- `p:local`. Models: ndg/xacml/utils/etree.py:125, 138. -/
def qualified (p loc : Chars) : Chars := p ++ ':' :: loc

/-- The declaration, if there is none yet. Models: ndg/xacml/utils/etree.py:127-129, 143-147. -/
def nsDeclaration (declared : List Chars) (p uri : Chars) : Chars :=
  if declared.contains uri then [] else printAttr ("xmlns:".toList ++ p) uri

/-- `declaredNss` after it. Models: ndg/xacml/utils/etree.py:127-129, 143-147. -/
def declare (declared : List Chars) (uri : Chars) : List Chars :=
  if declared.contains uri then declared else declared ++ [uri]

/-- The loop over the attributes; also gives the new `declaredNss`. Models: ndg/xacml/utils/etree.py:117-133. -/
def printAttribs : List (Chars × Chars) → List Chars → PrintM (Chars × List Chars)
  | [], d => pure ([], d)
  | (a, v) :: as, d =>
    if qnGetNs a = [] then do
      let (rest, d') ← printAttribs as d
      pure (printAttr a v ++ rest, d')
    else do
      let p ← allocNsPrefix (qnGetNs a)
      let (rest, d') ← printAttribs as (declare d (qnGetNs a))
      pure (nsDeclaration d p (qnGetNs a) ++ printAttr (qualified p (qnLocalPart a)) v ++ rest, d')

/-- The default of the argument `space`. Models: ndg/xacml/utils/etree.py:103. -/
def fourSpaces : Chars := [' ', ' ', ' ', ' ']

mutual
/-- `_PrettyPrint.__call__`. Models: ndg/xacml/utils/etree.py:103-165. -/
def printElem (indent space : Chars) (declared : List Chars) : PElem → PrintM Chars
  | .mk tag attrib text _ children => do
    let (strAttrib, d) ← printAttribs attrib declared
    let p ← allocNsPrefix (qnGetNs tag)
    let name := qualified p (qnLocalPart tag)
    let start := indent ++ '<' :: name ++ nsDeclaration d p (qnGetNs tag) ++ strAttrib ++ '>' :: estrip text
    match children with
    | [] => pure (start ++ '<' :: '/' :: name ++ ['>'])
    | c :: cs => do
      let body ← printChildren (indent ++ space) (declare d (qnGetNs tag)) (c :: cs)
      let last := ((c :: cs).getLast (List.cons_ne_nil c cs)).tail
      pure (start ++ body ++ '\n' :: indent ++ estrip last ++ '<' :: '/' :: name ++ ['>'])
/-- The loop over the children; `space` is not passed on. Models: ndg/xacml/utils/etree.py:153-157. -/
def printChildren (indent : Chars) (declared : List Chars) : List PElem → PrintM Chars
  | [] => pure []
  | c :: cs => do
    let r ← printElem indent fourSpaces declared c
    let rest ← printChildren indent declared cs
    pure ('\n' :: r ++ rest)
end

/-- `prettyPrint(elem, indent, space=space)`: the result and `ElementTree._namespace_map` afterwards;
it is put back only if there was no exception. Models: ndg/xacml/utils/etree.py:48-73. -/
def prettyPrint (nsMap : List (Chars × Chars)) (e : PElem) (indent space : Chars) :
    Except PrintExc Chars × List (Chars × Chars) :=
  match (printElem indent space [] e).run { nsMap := nsMap, mapped := nsMap.map Prod.snd } with
  | .ok r _ => (.ok r, nsMap)
  | .error x s => (.error x, s.nsMap)

end Xacml
