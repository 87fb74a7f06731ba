import Verif.Spec.PrettyPrint
import Verif.Spec.Context

/-!
# Specification: requests and responses sent as pretty-printed text

With the standard library. The sender makes an element tree, pretty prints it and sends the characters; the receiver
parses them.
-/
namespace Xacml.Spec
open Xacml

mutual
/-- The tree that is printed: no comments, no text after elements. -/
def asTree : XNode → Option PElem
  | .other => none
  | .elem tag attrib text children => do
    let cs ← asTrees children
    some (.mk tag.toList (attrib.map fun a => (a.1.toList, a.2.toList)) (text.map String.toList) none cs)
def asTrees : List XNode → Option (List PElem)
  | [] => some []
  | n :: l => do
    let e ← asTree n
    let es ← asTrees l
    some (e :: es)
end

/-- The text of a parsed element: nothing if there are no characters. -/
def parsedText : Option Chars → Option String
  | none => none
  | some [] => none
  | some (c :: cs) => some (String.ofList (c :: cs))

mutual
/-- The tree that the receiver's parser makes, as far as readers look at it. -/
def parsed : PElem → XNode
  | .mk tag attrib text _ children =>
    .elem (String.ofList tag) (attrib.map fun a => (String.ofList a.1, String.ofList a.2)) (parsedText text) (parsedAll children)
def parsedAll : List PElem → List XNode
  | [] => []
  | c :: cs => parsed c :: parsedAll cs
end

/-- `n` is printed with the registry `m`, what is printed is an XML document, and parsing it gives `n'`. -/
def Sent (m : List (Chars × Chars)) (n n' : XNode) : Prop :=
  ∃ t out t', asTree n = some t ∧ (prettyPrint m t [] [' ', ' ', ' ', ' ']).1 = .ok out ∧ IsXml out t' ∧ n' = parsed t'

/-- A text without the white space around it, as `str.strip` removes it; nothing if there is nothing else. -/
def trimmed (s : String) : Option String :=
  if stripChars s.toList = [] then none else some (String.ofList (stripChars s.toList))

mutual
/-- The same elements with the same attributes and, in elements without children, the same text, trimmed. -/
def Respaced : XNode → XNode → Prop
  | .other, _ => False
  | .elem tag attrib text children, n' => ∃ text' children', n' = .elem tag attrib text' children' ∧
      (children = [] → text' = text.bind trimmed) ∧ RespacedAll children children'
def RespacedAll : List XNode → List XNode → Prop
  | [], l' => l' = []
  | n :: l, l' => ∃ n' k', l' = n' :: k' ∧ Respaced n n' ∧ RespacedAll l k'
end

/-! ## Requests with trimmed values -/

def trimmedValue (v : AttrVal) : AttrVal :=
  match v.value with
  | some (.str s) => { v with value := (trimmed s).map .str }
  | _ => v

def trimmedAttribute (a : Attribute) : Attribute := { a with values := a.values.map trimmedValue }

/-- The request with all string values trimmed. -/
def trimmedRequest (r : RequestX) : RequestX where
  subjects := r.subjects.map fun s => { s with attributes := s.attributes.map trimmedAttribute }
  resources := r.resources.map fun s => { s with attributes := s.attributes.map trimmedAttribute }
  action := r.action.map (List.map trimmedAttribute)
  environment := r.environment.map (List.map trimmedAttribute)

/-! ## What can be sent -/

/-- Neither identifiers nor values need escapes. -/
def PlainAttribute (a : Attribute) : Prop :=
  (∀ s, a.attributeId = some s ∨ a.dataType = some s ∨ a.issuer = some s → AttValue s.toList) ∧
  ∀ v ∈ a.values, ∀ s, v.value = some (.str s) → CharData s.toList

/-- An element that can be printed. -/
def Sendable (n : XNode) : Prop := ∃ t, asTree n = some t ∧ Printable t

/-- All attributes are plain, contents of resources can be printed. -/
def PlainRequest (r : RequestX) : Prop :=
  (∀ s ∈ r.subjects, ∀ a ∈ s.attributes, PlainAttribute a) ∧
  (∀ s ∈ r.resources, (∀ a ∈ s.attributes, PlainAttribute a) ∧ ∀ n, s.content = some (.node n) → Sendable n) ∧
  (∀ l, r.action = some l → ∀ a ∈ l, PlainAttribute a) ∧
  (∀ l, r.environment = some l → ∀ a ∈ l, PlainAttribute a)

/-- No resource has content. -/
def NoContent (r : RequestX) : Prop := ∀ s ∈ r.resources, s.content = none

/-- `ElementTree`'s registry of prefixes: a dict with the prefix `xml`, if there is a prefix for XACML contexts it is
the one of the library, and one of the prefixes `ns0` to `ns255` is free. -/
structure WriterRegistry (m : List (Chars × Chars)) : Prop where
  keys : (m.map Prod.fst).Nodup
  xml : (xmlUri, xmlName) ∈ m
  context : ∀ p, ("urn:oasis:names:tc:xacml:2.0:context:schema:os".toList, p) ∈ m → p = "xacml-context".toList
  free : freePrefixes m ≠ []

end Xacml.Spec
