import Verif.Model.PrettyPrint
import Verif.Model.Eval

/-!
# Attribute selection with the standard library's ElementTree

`EtreeXPathSelector` as it is when lxml is not used, on top of `Element.findall` and `xml.etree.ElementPath`
(CPython 3.11). Python tells elements apart by identity; here an element is identified by its position, the list of
child indices leading to it from the context element.
-/
namespace Xacml

/-- `elem.tag`. -/
def PElem.tag : PElem → Chars
  | .mk t _ _ _ _ => t
/-- `elem.attrib`. -/
def PElem.attrib : PElem → List (Chars × Chars)
  | .mk _ a _ _ _ => a
/-- `elem.text`. -/
def PElem.text : PElem → Option Chars
  | .mk _ _ t _ _ => t
/-- `list(elem)`. -/
def PElem.children : PElem → List PElem
  | .mk _ _ _ _ cs => cs

mutual
/-- `"".join(elem.itertext())`. -/
def PElem.itertext : PElem → Chars
  | .mk _ _ text _ cs => text.getD [] ++ PElem.itertextAll cs
/-- The texts of children, each followed by its tail. -/
def PElem.itertextAll : List PElem → Chars
  | [] => []
  | c :: cs => c.itertext ++ c.tail.getD [] ++ PElem.itertextAll cs
end

mutual
/-- `elem.iter()` without `elem` itself. -/
def PElem.iterBelow : PElem → List (List Nat)
  | .mk _ _ _ _ cs => PElem.iterBelowFrom 0 cs
/-- Children, starting with number `k`, and what is below them. -/
def PElem.iterBelowFrom : Nat → List PElem → List (List Nat)
  | _, [] => []
  | k, c :: cs => [k] :: (c.iterBelow.map (k :: ·) ++ PElem.iterBelowFrom (k + 1) cs)
end

/-- The element at a position. -/
def PElem.get? : PElem → List Nat → Option PElem
  | e, [] => some e
  | e, i :: p => match e.children[i]? with
    | some c => c.get? p
    | none => none

/-- The children of the element at a position. -/
def kidsOf (root : PElem) (p : List Nat) : List (List Nat) :=
  match root.get? p with
  | none => []
  | some e => (List.range e.children.length).map fun i => p ++ [i]

/-- The elements below the one at a position, in document order. -/
def insideOf (root : PElem) (p : List Nat) : List (List Nat) :=
  match root.get? p with
  | none => []
  | some e => e.iterBelow.map (p ++ ·)

/-- The tag of the element at a position. -/
def tagOf (root : PElem) (p : List Nat) : Chars := ((root.get? p).map PElem.tag).getD []

/-- `elem.get(key)`. -/
def attrOf (root : PElem) (p : List Nat) (key : Chars) : Option Chars := (root.get? p).bind (·.attrib.lookup key)

/-- `"".join(elem.itertext())`. -/
def innerText (root : PElem) (p : List Nat) : Chars := ((root.get? p).map PElem.itertext).getD []

/-! ## Tokens -/

/-- Tokens of a path. `bad`: a name with a prefix, which makes the tokenizer raise when it gets there. `sym`: another
of the characters `*:[]()@=`. -/
inductive XTok where
  | lit (value : Chars)
  | dcolon | slash | dslash | dot | ddot | parens | ne
  | sym (c : Char)
  | tag (tag : Chars)
  | bad
  | space
  deriving DecidableEq

/-- `[^/\[\]\(\)@!=\s]`, the characters of names. Models: xml/etree/ElementPath.py `xpath_tokenizer_re`. -/
def isPathChar (c : Char) : Bool := !['/', '[', ']', '(', ')', '@', '!', '='].contains c && !isPySpace c

/-- What `(?:\{[^}]+\})?[^/\[\]\(\)@!=\s]+` matches. Models: xml/etree/ElementPath.py `xpath_tokenizer_re`. -/
def tagToken (s : Chars) : Chars :=
  let plain := s.takeWhile isPathChar
  match s with
  | '{' :: cs =>
    let ns := cs.takeWhile (· != '}')
    match cs.dropWhile (· != '}') with
    | [] => plain
    | _ :: rest =>
      let loc := rest.takeWhile isPathChar
      if ns = [] ∨ loc = [] then plain else '{' :: (ns ++ '}' :: loc)
  | _ => plain

/-- A name; without prefix map a prefix is an error. Models: xml/etree/ElementPath.py `xpath_tokenizer`. -/
def nameToken (t : Chars) : XTok := if t.head? ≠ some '{' ∧ ':' ∈ t then .bad else .tag t

/-- The token at the start of a string and its length. `none`: nothing matches here, and `re.findall` goes on with the
next character. Models: xml/etree/ElementPath.py `xpath_tokenizer_re`. -/
def firstToken : Chars → Option (XTok × Nat)
  | [] => none
  | c :: cs =>
    if (c = '\'' ∨ c = '"') ∧ c ∈ cs then
      some (.lit (cs.takeWhile (· != c)), (cs.takeWhile (· != c)).length + 2)
    else if c = ':' ∧ cs.head? = some ':' then some (.dcolon, 2)
    else if c = '/' then (if cs.head? = some '/' then some (.dslash, 2) else some (.slash, 1))
    else if c = '.' then (if cs.head? = some '.' then some (.ddot, 2) else some (.dot, 1))
    else if c = '(' ∧ cs.head? = some ')' then some (.parens, 2)
    else if c = '!' ∧ cs.head? = some '=' then some (.ne, 2)
    else if c ∈ ['*', ':', '[', ']', '(', ')', '@', '='] then some (.sym c, 1)
    else if tagToken (c :: cs) ≠ [] then some (nameToken (tagToken (c :: cs)), (tagToken (c :: cs)).length)
    else if isPySpace c then some (.space, ((c :: cs).takeWhile isPySpace).length)
    else none

/-- The tokens of a string without its first `k` characters. -/
def xtokensFrom : Nat → Chars → List XTok
  | _, [] => []
  | k + 1, _ :: cs => xtokensFrom k cs
  | 0, c :: cs => match firstToken (c :: cs) with
    | some (t, n) => t :: xtokensFrom (n - 1) cs
    | none => xtokensFrom 0 cs

/-- `xpath_tokenizer(path)`. Models: xml/etree/ElementPath.py `xpath_tokenizer`. -/
def xtokens (s : Chars) : List XTok := xtokensFrom 0 s

/-! ## Compiling -/

/-- Predicates that are understood. -/
inductive XPred where
  | hasAttr (key : Chars)
  | attr (neg : Bool) (key value : Chars)
  | hasChild (tag : Chars)
  | child (neg : Bool) (tag value : Chars)
  | text (neg : Bool) (value : Chars)
  /-- `[n]` -/
  | index (n : Nat)
  /-- `[last()-n]` -/
  | fromLast (n : Nat)
  deriving DecidableEq

/-- The selectors of a compiled path. `missing`: the path ends too early; the selector is then `None`. -/
inductive XOp where
  | child (tag : Chars)
  | star
  | self
  | parent
  | descendant (tag : Option Chars)
  | pred (p : XPred)
  | missing
  deriving DecidableEq

/-- `re.match(r"\-?\d+$", s)`. Simplification: digits outside ASCII are left out. -/
def isInteger (s : Chars) : Bool :=
  let ds := if s.head? = some '-' then s.drop 1 else s
  !ds.isEmpty && ds.all Char.isDigit

/-- `int(s)` of decimal digits. -/
def digitsValue (s : Chars) : Nat := s.foldl (fun n c => 10 * n + (c.toNat - 48)) 0

/-- SyntaxError. -/
def syntaxError : Exc := .other 0

/-- `[n]`. Models: xml/etree/ElementPath.py `prepare_predicate`. -/
def indexPred (s : Chars) : Except Exc XPred :=
  if s.head? = some '-' ∨ digitsValue s = 0 then .error syntaxError else .ok (.index (digitsValue s))

/-- `[last()-n]`, where `-n` is the integer. Models: xml/etree/ElementPath.py `prepare_predicate`. -/
def offsetPred (s : Chars) : Except Exc XPred :=
  if isInteger s = true ∧ s.head? = some '-' ∧ digitsValue (s.drop 1) ≠ 0 then .ok (.fromLast (digitsValue (s.drop 1)))
  else .error syntaxError

/-- The tokens between `[` and `]`. Models: xml/etree/ElementPath.py `prepare_predicate`. -/
def predicateOf : List XTok → Except Exc XPred
  | [.sym '@', .tag k] => .ok (.hasAttr k)
  | [.sym '@', .tag k, .sym '=', .lit v] => .ok (.attr false k v)
  | [.sym '@', .tag k, .ne, .lit v] => .ok (.attr true k v)
  | [.tag t] => if isInteger t then indexPred t else .ok (.hasChild t)
  | [.dot, .sym '=', .lit v] => .ok (.text false v)
  | [.dot, .ne, .lit v] => .ok (.text true v)
  | [.tag t, .sym '=', .lit v] => if isInteger t then .error syntaxError else .ok (.child false t v)
  | [.tag t, .ne, .lit v] => if isInteger t then .error syntaxError else .ok (.child true t v)
  | [.tag f, .parens] => if f = chars% "last" then .ok (.fromLast 0) else .error syntaxError
  | [.tag f, .sym '(', .sym ')'] => if f = chars% "last" then .ok (.fromLast 0) else .error syntaxError
  | [.tag f, .parens, .tag o] => if f = chars% "last" then offsetPred o else .error syntaxError
  | [.tag _, .sym '(', .sym ')', .tag _] => .error syntaxError
  | _ => .error syntaxError

/-- Where the compiler is: at the start of an operation, after one (so that a slash may follow), after `//`, or inside
brackets with the tokens so far in reverse. -/
inductive PathMode where
  | op | after | deep
  | brackets (seen : List XTok)

/-- The compiling loop of `iterfind`. Models: xml/etree/ElementPath.py `iterfind`, `ops` and `prepare_*`. -/
def compilePath : PathMode → List XTok → Except Exc (List XOp)
  | .op, [] => .ok []
  | .after, [] => .ok []
  | .deep, [] => .ok [.missing]
  | .brackets _, [] => .ok [.missing]
  | _, .bad :: _ => .error syntaxError
  | .deep, .sym '*' :: ts => do .ok (.descendant none :: (← compilePath .after ts))
  | .deep, .tag t :: ts => do .ok (.descendant (some t) :: (← compilePath .after ts))
  | .deep, .space :: ts => do .ok (.descendant (some []) :: (← compilePath .after ts))
  | .deep, _ :: _ => .error syntaxError
  | .brackets seen, .sym ']' :: ts => do
    let p ← predicateOf seen.reverse
    .ok (.pred p :: (← compilePath .after ts))
  | .brackets seen, .space :: ts => compilePath (.brackets seen) ts
  | .brackets seen, t :: ts => compilePath (.brackets (t :: seen)) ts
  | .after, .slash :: ts => compilePath .op ts
  | _, .tag t :: ts => do .ok (.child t :: (← compilePath .after ts))
  | _, .space :: ts => do .ok (.child [] :: (← compilePath .after ts))
  | _, .sym '*' :: ts => do .ok (.star :: (← compilePath .after ts))
  | _, .dot :: ts => do .ok (.self :: (← compilePath .after ts))
  | _, .ddot :: ts => do .ok (.parent :: (← compilePath .after ts))
  | _, .dslash :: ts => compilePath .deep ts
  | _, .sym '[' :: ts => compilePath (.brackets []) ts
  | _, _ :: _ => .error .keyError

/-! ## Running -/

/-- The tag in a path accepts the tag of an element. Models: xml/etree/ElementPath.py `_is_wildcard_tag`,
`_prepare_tag`, `prepare_child`. Simplification: tags of elements are not empty. -/
def tagTest (t tag : Chars) : Bool :=
  if t = chars% "{*}*" then true
  else if t = chars% "{}*" then tag.head? != some '{'
  else if (chars% "{*}").isPrefixOf t then tag == t.drop 3 || (t.drop 2).isSuffixOf tag
  else if (chars% "}*").isSuffixOf t then t.dropLast.isPrefixOf tag
  else if (chars% "{}").isPrefixOf t then tag == t.drop 2
  else tag == t

/-- `parent.findall(tag)` for the tag of an element, and `elem.findall(tag)` for the tag in a predicate: such a path
consists of one name, so what is found are the children that have it. -/
def namedKids (root : PElem) (p : List Nat) (tag : Chars) : List (List Nat) :=
  (kidsOf root p).filter fun q => tagTest tag (tagOf root q)

/-- An element passes a predicate. Models: xml/etree/ElementPath.py `prepare_predicate`. The parent map has no entry
for the context element. -/
def XPred.holds (root : PElem) (p : List Nat) : XPred → Bool
  | .hasAttr k => (attrOf root p k).isSome
  | .attr false k v => attrOf root p k == some v
  | .attr true k v => match attrOf root p k with
    | some w => w != v
    | none => false
  | .hasChild t => !(namedKids root p t).isEmpty
  | .child false t v => (namedKids root p t).any fun q => innerText root q == v
  | .child true t v => (namedKids root p t).any fun q => innerText root q != v
  | .text false v => innerText root p == v
  | .text true v => innerText root p != v
  | .index n => p != [] && (namedKids root p.dropLast (tagOf root p))[n - 1]? == some p
  | .fromLast n => p != [] && (namedKids root p.dropLast (tagOf root p)).reverse[n]? == some p

/-- `result_map`: each of them the first time only. -/
def firstTimes : List (List Nat) → List (List Nat) → List (List Nat)
  | _, [] => []
  | seen, p :: ps => if p ∈ seen then firstTimes seen ps else p :: firstTimes (p :: seen) ps

/-- A selector applied to the elements found so far. Models: xml/etree/ElementPath.py `prepare_child`, `prepare_star`,
`prepare_self`, `prepare_parent`, `prepare_descendant`, `prepare_predicate`. -/
def XOp.select (root : PElem) (found : List (List Nat)) : XOp → List (List Nat)
  | .child t => found.flatMap fun p => (kidsOf root p).filter fun q => tagTest t (tagOf root q)
  | .star => found.flatMap (kidsOf root)
  | .self => found
  | .parent => firstTimes [] ((found.filter (· != [])).map List.dropLast)
  | .descendant (some t) => found.flatMap fun p => (insideOf root p).filter fun q => tagTest t (tagOf root q)
  | .descendant none => found.flatMap (insideOf root)
  | .pred q => found.filter fun p => q.holds root p
  | .missing => []

/-- `iterfind` and `list` of it. Models: xml/etree/ElementPath.py `iterfind`, `findall`. `None` cannot be called: a
missing selector is a TypeError. Simplification: the cache of compiled paths is left out. -/
def etreeFindall (root : PElem) (path : Chars) : Except Exc (List (List Nat)) :=
  let path := if path.getLast? = some '/' then path ++ ['*'] else path
  if path.head? = some '/' then .error syntaxError
  else if xtokens path = [] then .error .typeError
  else do
    let ops ← compilePath .op (xtokens path)
    if .missing ∈ ops then .error .typeError
    else .ok (ops.foldl (XOp.select root) [[]])

/-- Whether one of the characters `/*[@.` occurs outside braces. Models: CPython Modules/_elementtree.c `checkpath`. -/
def hasPathChar : Bool → Chars → Bool
  | _, [] => false
  | out, c :: cs =>
    if c = '{' then hasPathChar false cs
    else if c = '}' then hasPathChar true cs
    else if out && ['/', '*', '[', '@', '.'].contains c then true
    else hasPathChar out cs

/-- Whether a string is a path and not just a tag. Models: CPython Modules/_elementtree.c `checkpath`. -/
def isPath (s : Chars) : Bool :=
  ((chars% "{}").isPrefixOf s && decide (3 ≤ s.length)) || (chars% "{*}").isPrefixOf s || hasPathChar true s

/-- `elem.findall(path)`. Models: CPython Modules/_elementtree.c `Element.findall`. -/
def findall (root : PElem) (path : Chars) : Except Exc (List (List Nat)) :=
  if isPath path then etreeFindall root path
  else .ok ((kidsOf root []).filter fun q => tagOf root q == path)

/-- `EtreeXPathSelector(contextElem).selectText(path)` without lxml.
Models: ndg/xacml/utils/xpath_selector.py:76-93. Simplification: trees hold elements only (the parser of the
standard library drops comments), so the text of a comment never matters. -/
def selectText (contextElem : PElem) : XPathEngine := fun path =>
  match path with
  | none => .error .attributeError
  | some p => do
    let relPath := if p.toList.head? = some '/' then '.' :: p.toList else p.toList
    let elems ← findall contextElem relPath
    .ok (elems.map fun q => ((contextElem.get? q).bind PElem.text).map fun t => .str (String.ofList t))

/-! ## With lxml -/

/-- What lxml's XPath engine puts into a node set: elements, comments and processing instructions, which have a `text`,
or the strings it makes of attributes and text nodes (and other objects, which have no `text`), with their `str()`. -/
inductive XPathItem where
  | node (text : Option String)
  | other (str : String)

/-- What lxml's XPath engine returns: a list for a node set, or a string, a float or a Boolean. -/
inductive XPathResult where
  | items (l : List XPathItem)
  | string (s : String)
  | number
  | boolean

/-- `EtreeXPathSelector(contextElem).selectText(path)` with lxml; `etxpath p`: `ElementTree.ETXPath(p)(contextElem)`.
Models: ndg/xacml/utils/xpath_selector.py:51-75. -/
def selectTextLxml (etxpath : String → Except Exc XPathResult) : XPathEngine := fun path =>
  match path with
  | none => .error .attributeError
  | some p => do
    let relPath := if p.toList.head? = some '/' then "." ++ p else p
    match ← etxpath relPath with
    | .items l => .ok (l.map fun
      | .node text => text.map .str
      | .other str => some (.str str))
    | .string s => .ok (s.toList.map fun c => some (.str (String.singleton c)))
    | .number => .error .typeError
    | .boolean => .error .typeError

end Xacml
