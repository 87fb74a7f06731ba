import Verif.Model.PrettyPrint

/-!
# Specification: XML documents and what they say

The part of XML 1.0 with Namespaces that is needed: elements, attributes in double quotes,
character data. No entities, comments, CDATA sections, processing instructions or empty-element
tags; one space before each attribute. A string that is read here is read the same by any XML parser.
`Props/PrettyPrint` proves that no string has two readings.
-/
namespace Xacml.Spec
open Xacml

/-- XML 1.0, production 4, without the colon. -/
def nameStartChar (c : Char) : Bool :=
  let n := c.toNat
  (65 ≤ n && n ≤ 90) || n == 95 || (97 ≤ n && n ≤ 122) || (0xC0 ≤ n && n ≤ 0xD6) || (0xD8 ≤ n && n ≤ 0xF6) ||
  (0xF8 ≤ n && n ≤ 0x2FF) || (0x370 ≤ n && n ≤ 0x37D) || (0x37F ≤ n && n ≤ 0x1FFF) || (0x200C ≤ n && n ≤ 0x200D) ||
  (0x2070 ≤ n && n ≤ 0x218F) || (0x2C00 ≤ n && n ≤ 0x2FEF) || (0x3001 ≤ n && n ≤ 0xD7FF) || (0xF900 ≤ n && n ≤ 0xFDCF) ||
  (0xFDF0 ≤ n && n ≤ 0xFFFD) || (0x10000 ≤ n && n ≤ 0xEFFFF)

/-- Production 4a, without the colon. -/
def nameChar (c : Char) : Bool :=
  let n := c.toNat
  nameStartChar c || n == 45 || n == 46 || (48 ≤ n && n ≤ 57) || n == 0xB7 || (0x300 ≤ n && n ≤ 0x36F) ||
  (0x203F ≤ n && n ≤ 0x2040)

/-- A name without a colon. -/
def NCName (n : Chars) : Prop := n.head?.any nameStartChar = true ∧ n.all nameChar = true

/-- Characters that stand for themselves (production 2; a carriage return would be read as a newline). -/
def plainChar (c : Char) : Bool :=
  let n := c.toNat
  c != '<' && c != '&' && (n == 9 || n == 10 || (0x20 ≤ n && n ≤ 0xD7FF) || (0xE000 ≤ n && n ≤ 0xFFFD) || 0x10000 ≤ n)

/-- Production 14. -/
def CharData (t : Chars) : Prop := t.all plainChar = true ∧ ¬ [']', ']', '>'] <:+: t

/-- Production 10, with double quotes; tabs and newlines would be read as spaces. -/
def AttValue (v : Chars) : Prop := v.all (fun c => plainChar c && c != '"' && c != '\t' && c != '\n') = true

/-- A name with or without a prefix. -/
structure QN where
  pfx : Option Chars
  loc : Chars
  deriving DecidableEq

def QN.write (q : QN) : Chars :=
  match q.pfx with
  | none => q.loc
  | some p => p ++ ':' :: q.loc

def QN.Lexical (q : QN) : Prop := NCName q.loc ∧ ∀ p, q.pfx = some p → NCName p

/-- The syntax of an element, with the character data that follows it. -/
inductive Raw where
  | elem (name : QN) (attrs : List (QN × Chars)) (text : Chars) (children : List Raw) (tail : Chars)

def writeAttr (a : QN × Chars) : Chars := ' ' :: a.1.write ++ '=' :: '"' :: a.2 ++ ['"']

mutual
/-- The characters of it. -/
def Raw.write : Raw → Chars
  | .elem name attrs text children tail =>
    '<' :: name.write ++ attrs.flatMap writeAttr ++ '>' :: text ++ writeAll children ++
      '<' :: '/' :: name.write ++ '>' :: tail
def writeAll : List Raw → Chars
  | [] => []
  | r :: rs => r.write ++ writeAll rs
end

mutual
/-- Names are names, values are values, no attribute occurs twice. -/
def Raw.Lexical : Raw → Prop
  | .elem name attrs text children tail =>
    name.Lexical ∧ (∀ a ∈ attrs, a.1.Lexical ∧ AttValue a.2) ∧ (attrs.map Prod.fst).Nodup ∧ CharData text ∧
      LexicalAll children ∧ CharData tail
def LexicalAll : List Raw → Prop
  | [] => True
  | r :: rs => r.Lexical ∧ LexicalAll rs
end

/-! ## Namespaces in XML -/

def xmlnsName : Chars := "xmlns".toList
def xmlName : Chars := "xml".toList
def xmlUri : Chars := "http://www.w3.org/XML/1998/namespace".toList
def xmlnsUri : Chars := "http://www.w3.org/2000/xmlns/".toList

/-- The name in Clark's notation, as ElementTree writes it. -/
def clark (uri loc : Chars) : Chars := '{' :: uri ++ '}' :: loc

/-- A prefix, or the empty string for the default, and its namespace; the last declaration comes first. -/
abbrev Scope := List (Chars × Chars)

/-- The prefix an attribute declares. -/
def declares (q : QN) : Option Chars :=
  match q.pfx with
  | some p => if p = xmlnsName then some q.loc else none
  | none => if q.loc = xmlnsName then some [] else none

/-- The constraints on declarations. -/
def declarationOk (p uri : Chars) : Bool :=
  p != xmlnsName && uri != xmlnsUri && ((p == xmlName) == (uri == xmlUri)) && (p.isEmpty || !uri.isEmpty)

def declarations (attrs : List (QN × Chars)) : Scope :=
  attrs.filterMap fun a => (declares a.1).map fun p => (p, a.2)

/-- Element names without prefix are in the default namespace. -/
def elementName (sc : Scope) (q : QN) : Option Chars :=
  match q.pfx with
  | some p => (sc.lookup p).map fun uri => clark uri q.loc
  | none =>
    match sc.lookup [] with
    | none | some [] => some q.loc
    | some uri => some (clark uri q.loc)

/-- Attributes without prefix are in no namespace. -/
def attributeName (sc : Scope) (q : QN) : Option Chars :=
  match q.pfx with
  | some p => (sc.lookup p).map fun uri => clark uri q.loc
  | none => some q.loc

/-- The attributes that are not declarations, by name. -/
def attributes (sc : Scope) : List (QN × Chars) → Option (List (Chars × Chars))
  | [] => some []
  | a :: as =>
    match declares a.1 with
    | some _ => attributes sc as
    | none => do
      let n ← attributeName sc a.1
      let rest ← attributes sc as
      some ((n, a.2) :: rest)

mutual
/-- The element tree, if prefixes are declared and names distinct. -/
def Raw.resolve (sc : Scope) : Raw → Option PElem
  | .elem name attrs text children tail =>
    if (declarations attrs).all (fun d => declarationOk d.1 d.2) then do
      let sc' := declarations attrs ++ sc
      let tag ← elementName sc' name
      let as ← attributes sc' attrs
      if (as.map Prod.fst).Nodup then do
        let cs ← resolveAll sc' children
        some (.mk tag as (some text) (some tail) cs)
      else none
    else none
def resolveAll (sc : Scope) : List Raw → Option (List PElem)
  | [] => some []
  | r :: rs => do
    let e ← r.resolve sc
    let es ← resolveAll sc rs
    some (e :: es)
end

/-- `s` is an XML document (without prologue), and says `e`. -/
def IsXml (s : Chars) (e : PElem) : Prop :=
  ∃ raw : Raw, raw.Lexical ∧ raw.write = s ∧ raw.resolve [(xmlName, xmlUri)] = some e

/-! ## Content -/

mutual
/-- The tree with all texts stripped; the tail of an element is outside of it. -/
def stripped : PElem → PElem
  | .mk tag attrib text _ children => .mk tag attrib (some (estrip text)) none (strippedAll children)
/-- Children with their tails. -/
def strippedAll : List PElem → List (PElem)
  | [] => []
  | .mk tag attrib text tail children :: cs =>
    .mk tag attrib (some (estrip text)) (some (estrip tail)) (strippedAll children) :: strippedAll cs
end

/-- The elements say the same, apart from white space around texts. -/
def SameContent (e e' : PElem) : Prop := stripped e = stripped e'

mutual
/-- The texts of elements without children have no white space around them. -/
def LeavesTight : PElem → Prop
  | .mk _ _ text _ children => (children = [] → ∀ t, text = some t → stripChars t = t) ∧ LeavesTightAll children
def LeavesTightAll : List PElem → Prop
  | [] => True
  | c :: cs => LeavesTight c ∧ LeavesTightAll cs
end

/-- White space that a parser leaves as it is. -/
def Blank (s : Chars) : Prop := ∀ c ∈ s, c = ' ' ∨ c = '\t' ∨ c = '\n'

/-! ## Trees that can be printed -/

/-- A namespace that can be declared. -/
def NamespaceOk (uri : Chars) : Prop := uri ≠ [] ∧ AttValue uri ∧ uri ≠ xmlnsUri

/-- `{uri}local`. -/
def ElementTag (tag : Chars) : Prop := ∃ uri loc, tag = clark uri loc ∧ NamespaceOk uri ∧ NCName loc

/-- `{uri}local`, or `local` other than `xmlns`. -/
def AttributeKey (k : Chars) : Prop := ElementTag k ∨ (NCName k ∧ k ≠ xmlnsName)

/-- No text, or text that needs no escapes. -/
def PlainText (t : Option Chars) : Prop := ∀ s, t = some s → CharData s

mutual
/-- Every element is in a namespace, no text or value needs escapes, and text after a child occurs
only after the last. -/
def Printable : PElem → Prop
  | .mk tag attrib text _ children =>
    ElementTag tag ∧ (∀ a ∈ attrib, AttributeKey a.1 ∧ AttValue a.2) ∧ (attrib.map Prod.fst).Nodup ∧ PlainText text ∧
      PrintableAll children
def PrintableAll : List PElem → Prop
  | [] => True
  | [c] => Printable c ∧ PlainText c.tail
  | c :: c' :: cs => Printable c ∧ estrip c.tail = [] ∧ PrintableAll (c' :: cs)
end

/-- A registry of prefixes as `ElementTree.register_namespace` keeps it: no namespace twice, no prefix
twice, `xml` for the namespace of `xml`. -/
structure GoodMap (m : List (Chars × Chars)) : Prop where
  keys : (m.map Prod.fst).Nodup
  prefixes : (m.map Prod.snd).Nodup
  ok : ∀ x ∈ m, NCName x.2 ∧ x.2 ≠ xmlnsName
  xml : (xmlUri, xmlName) ∈ m

/-- All namespaces in a tree. -/
def attribNamespaces (attrib : List (Chars × Chars)) : List Chars :=
  (attrib.map fun a => qnGetNs a.1).filter (· ≠ [])

mutual
def namespaces : PElem → List Chars
  | .mk tag attrib _ _ children => attribNamespaces attrib ++ qnGetNs tag :: namespacesAll children
def namespacesAll : List PElem → List Chars
  | [] => []
  | c :: cs => namespaces c ++ namespacesAll cs
end

/-- The registry is good as far as the namespaces of the tree are concerned. -/
def GoodFor (e : PElem) (m : List (Chars × Chars)) : Prop :=
  GoodMap (m.filter fun x => (xmlUri :: namespaces e).contains x.1)

/-- The prefixes `ns0` to `ns255` that are not taken. -/
def freePrefixes (m : List (Chars × Chars)) : List Chars :=
  ((List.range 256).map fun i => 'n' :: 's' :: (toString i).toList).filter fun p => !(m.map Prod.snd).contains p

end Xacml.Spec
