import Verif.Model.XPath

/-!
# Specification: the elements a path names

XPath 1.0 for paths made of the steps `/name`, `//name`, `/*`, `//*`, `/.` and `/..`, with predicates. Elements of a
document are identified by their position: the list of child indices leading to them.
-/
namespace Xacml.Spec
open Xacml

/-- What a step says about the tag: `*`, a tag, `{*}name` or `{ns}*`. -/
inductive NameTest where
  | any
  | tag (t : Chars)
  | inAny (name : Chars)
  | allIn (ns : Chars)

/-- Predicates: `[@k]`, `[@k='v']`, `[@k!='v']`, `[name]`, `[name='v']`, `[name!='v']`, `[.='v']`, `[.!='v']`, `[n]`
and `[last()-n]`. -/
inductive Pred where
  | hasAttr (k : Chars)
  | attrIs (k v : Chars)
  | attrNot (k v : Chars)
  | hasChild (n : NameTest)
  | childIs (n : NameTest) (v : Chars)
  | childNot (n : NameTest) (v : Chars)
  | textIs (v : Chars)
  | textNot (v : Chars)
  | nth (n : Nat)
  | fromLast (n : Nat)

/-- A location step. -/
inductive Step where
  | child (n : NameTest) (ps : List Pred)
  | deep (n : NameTest) (ps : List Pred)
  | self
  | parent

/-! ## How paths are written -/

def NameTest.text : NameTest → Chars
  | .any => ['*']
  | .tag t => t
  | .inAny name => ['{', '*', '}'] ++ name
  | .allIn ns => ['{'] ++ ns ++ ['}', '*']

/-- A string in quotes: in double ones if it contains a single one. -/
def quoted (v : Chars) : Chars := if '\'' ∈ v then ['"'] ++ v ++ ['"'] else ['\''] ++ v ++ ['\'']

def Pred.inner : Pred → Chars
  | .hasAttr k => '@' :: k
  | .attrIs k v => '@' :: k ++ ['='] ++ quoted v
  | .attrNot k v => '@' :: k ++ ['!', '='] ++ quoted v
  | .hasChild n => n.text
  | .childIs n v => n.text ++ ['='] ++ quoted v
  | .childNot n v => n.text ++ ['!', '='] ++ quoted v
  | .textIs v => ['.', '='] ++ quoted v
  | .textNot v => ['.', '!', '='] ++ quoted v
  | .nth n => n.repr.toList
  | .fromLast n => (chars% "last()") ++ (if n = 0 then [] else '-' :: n.repr.toList)

def Pred.text (p : Pred) : Chars := ['['] ++ p.inner ++ [']']

def Step.text : Step → Chars
  | .child n ps => ['/'] ++ n.text ++ ps.flatMap Pred.text
  | .deep n ps => ['/', '/'] ++ n.text ++ ps.flatMap Pred.text
  | .self => ['/', '.']
  | .parent => ['/', '.', '.']

/-- A path as it is written. -/
def pathText (ss : List Step) : String := String.ofList (ss.flatMap Step.text)

/-! ## What paths mean -/

/-- The element at a position. -/
def elemAt : PElem → List Nat → Option PElem
  | e, [] => some e
  | .mk _ _ _ _ cs, i :: p => (cs[i]?).bind fun c => elemAt c p

/-- The children of the element at a position, in document order. -/
def childrenAt (root : PElem) (p : List Nat) : List (List Nat) :=
  match elemAt root p with
  | some (.mk _ _ _ _ cs) => (List.range cs.length).map fun i => p ++ [i]
  | none => []

/-- Namespace and local name of a tag as ElementTree writes it, `name` or `{ns}name`. -/
def splitTag : Chars → Option Chars × Chars
  | '{' :: cs => (some (cs.takeWhile (· ≠ '}')), (cs.dropWhile (· ≠ '}')).drop 1)
  | t => (none, t)

/-- The element at a position has a tag as the test says. -/
def NameTest.accepts (root : PElem) (n : NameTest) (p : List Nat) : Bool :=
  match elemAt root p with
  | none => false
  | some (.mk t _ _ _ _) => match n with
    | .any => true
    | .tag t' => t == t'
    | .inAny name => (splitTag t).2 == name
    | .allIn ns => (splitTag t).1 == some ns

/-- The attribute of the element at a position. -/
def attrAt (root : PElem) (p : List Nat) (k : Chars) : Option Chars :=
  match elemAt root p with
  | some (.mk _ as _ _ _) => as.lookup k
  | none => none

mutual
/-- The string value of an element: all text inside it, in document order. -/
def stringValue : PElem → Chars
  | .mk _ _ text _ cs => text.getD [] ++ stringValues cs
def stringValues : List PElem → Chars
  | [] => []
  | .mk t as text tail cs :: es => stringValue (.mk t as text tail cs) ++ tail.getD [] ++ stringValues es
end

/-- The string value of the element at a position. -/
def stringAt (root : PElem) (p : List Nat) : Chars := ((elemAt root p).map stringValue).getD []

/-- The `i`-th (from 1) of `size` candidates passes a predicate. -/
def Pred.holds (root : PElem) (p : List Nat) (i size : Nat) : Pred → Bool
  | .hasAttr k => (attrAt root p k).isSome
  | .attrIs k v => attrAt root p k == some v
  | .attrNot k v => (attrAt root p k).any (· != v)
  | .hasChild n => (childrenAt root p).any (n.accepts root)
  | .childIs n v => (childrenAt root p).any fun q => n.accepts root q && stringAt root q == v
  | .childNot n v => (childrenAt root p).any fun q => n.accepts root q && stringAt root q != v
  | .textIs v => stringAt root p == v
  | .textNot v => stringAt root p != v
  | .nth n => i == n
  | .fromLast n => i + n == size

/-- The candidates that pass a predicate. -/
def Pred.keep (root : PElem) (pr : Pred) (l : List (List Nat)) : List (List Nat) :=
  (l.zipIdx.filter fun x => pr.holds root x.1 (x.2 + 1) l.length).map (·.1)

/-- The children of an element that a step selects: those with the right tag, filtered by one predicate after the
other. -/
def selected (root : PElem) (n : NameTest) (ps : List Pred) (p : List Nat) : List (List Nat) :=
  ps.foldl (fun l pr => pr.keep root l) ((childrenAt root p).filter (n.accepts root))

/-- A step leads from an element to another one: `//` stands for a child step from the element or from any one inside
it. -/
def Step.Leads (root : PElem) (p q : List Nat) : Step → Prop
  | .child n ps => q ∈ selected root n ps p
  | .deep n ps => ∃ inner, q ∈ selected root n ps (p ++ inner)
  | .self => q = p
  | .parent => ∃ i, p = q ++ [i]

/-- A path leads from a position to another one. -/
def PathLeads (root : PElem) : List Step → List Nat → List Nat → Prop
  | [], p, q => q = p
  | s :: ss, p, q => ∃ m, s.Leads root p m ∧ PathLeads root ss m q

/-! ## Which paths and documents are meant -/

/-- A character that starts names: letters and underscores, and outside ASCII all but white space. -/
def NameStart (c : Char) : Prop := c.isAlpha = true ∨ c = '_' ∨ (128 ≤ c.toNat ∧ isPySpace c = false)

/-- A character of names. -/
def NameChar (c : Char) : Prop := NameStart c ∨ c.isDigit = true ∨ c = '-' ∨ c = '.'

/-- A name without namespace. -/
def PlainName (t : Chars) : Prop := ∃ c cs, t = c :: cs ∧ NameStart c ∧ ∀ d ∈ cs, NameChar d

/-- A namespace: not empty, without closing brace, and not the wildcard. -/
def Namespace (ns : Chars) : Prop := ns ≠ [] ∧ '}' ∉ ns ∧ ns ≠ ['*']

/-- A tag as ElementTree writes it, `name` or `{namespace}name`. -/
def TagName (t : Chars) : Prop := PlainName t ∨ ∃ ns name, t = '{' :: ns ++ '}' :: name ∧ Namespace ns ∧ PlainName name

def NameTest.Ok : NameTest → Prop
  | .any => True
  | .tag t => TagName t
  | .inAny name => PlainName name
  | .allIn ns => Namespace ns

/-- `[*]` is not among the predicates that are understood, and strings cannot contain both kinds of quotes. -/
def Pred.Ok : Pred → Prop
  | .hasAttr k => TagName k
  | .attrIs k v | .attrNot k v => TagName k ∧ ¬ ('\'' ∈ v ∧ '"' ∈ v)
  | .hasChild n => n.Ok ∧ n ≠ .any
  | .childIs n v | .childNot n v => n.Ok ∧ n ≠ .any ∧ ¬ ('\'' ∈ v ∧ '"' ∈ v)
  | .textIs v | .textNot v => ¬ ('\'' ∈ v ∧ '"' ∈ v)
  | .nth n => 1 ≤ n
  | .fromLast _ => True

def Pred.positional : Pred → Bool
  | .nth _ | .fromLast _ => true
  | _ => false

/-- Positions are used in first predicates only, and only together with a tag. -/
def PredsOk (n : NameTest) (ps : List Pred) : Prop :=
  (∀ pr ∈ ps, pr.Ok) ∧ (∀ pr ∈ ps.tail, pr.positional = false) ∧
    ((∃ pr ∈ ps, pr.positional = true) → ∃ t, n = .tag t)

def Step.Ok : Step → Prop
  | .child n ps | .deep n ps => n.Ok ∧ PredsOk n ps
  | .self | .parent => True

def PathOk (ss : List Step) : Prop := ∀ s ∈ ss, s.Ok

/-- All tags of a document are tags. -/
def TagsOk (root : PElem) : Prop := ∀ p t as x y cs, elemAt root p = some (.mk t as x y cs) → TagName t

def Step.isDeep : Step → Bool
  | .deep _ _ => true
  | _ => false

/-- Document order: an element comes before those inside it, and before its later siblings. -/
def Before : List Nat → List Nat → Prop
  | [], q => q ≠ []
  | _ :: _, [] => False
  | i :: p, j :: q => i < j ∨ (i = j ∧ Before p q)

/-- The text of the element at a position (the part before its first child). -/
def textAt (root : PElem) (p : List Nat) : Option Native :=
  match elemAt root p with
  | some (.mk _ _ (some t) _ _) => some (.str (String.ofList t))
  | _ => none

end Xacml.Spec
