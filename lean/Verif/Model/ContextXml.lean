import Verif.Model.Readers
import Verif.Model.DecisionHeap

/-!
# Reading and writing request and response contexts
-/
namespace Xacml

/-- The ElementTree implementation in use: is it lxml, and does its Element class have the method
`getchildren`? lxml has it; the standard library has it up to Python 3.8.
Models: ndg/xacml/__init__.py:24-48, ndg/xacml/parsers/etree/context.py:419. -/
structure Etree where
  lxml : Bool
  getchildren : Bool

/-- What a program may have stored as the content of a resource. -/
inductive Content where
  | node (n : XNode)
  | other

/-- A request's resource with its content. Models: ndg/xacml/core/context/resource.py:15-53. -/
structure ResourceX where
  attributes : List Attribute := []
  content : Option Content := none

/-- The data of a request. Models: ndg/xacml/core/context/request.py:25-124. -/
structure RequestX where
  subjects : List CtxSubject := []
  resources : List ResourceX := []
  action : Option (List Attribute) := none
  environment : Option (List Attribute) := none

/-- `f` on all items, up to the first exception. -/
def forEach {α β} (f : α → Except Exc β) : List α → Except Exc (List β)
  | [] => .ok []
  | a :: l => do
    let b ← f a
    let bs ← forEach f l
    pure (b :: bs)

/-! ## Writing -/

/-- `XACML_2_0_CONTEXT_NS`. Models: ndg/xacml/core/context/__init__.py:24, ndg/xacml/core/__init__.py:35. -/
def contextNs : String := "urn:oasis:names:tc:xacml:2.0:context:schema:os"

/-- `str(QName(XACML_2_0_CONTEXT_NS, name))`.
Models: e.g. ndg/xacml/parsers/etree/context.py:50-51. -/
def contextTag (name : String) : String := "{" ++ contextNs ++ "}" ++ name

/-- `makeEtreeElement(tag, prefix, uri)` with attributes, text and children set afterwards. With lxml the
dict meant as namespace map is passed as attributes.
Models: ndg/xacml/parsers/etree/__init__.py:24-30, 43-50. -/
def makeElement (lib : Etree) (name uri : String) (attrib : List (String × String)) (text : Option String)
    (children : List XNode) : XNode :=
  .elem (contextTag name) ((if lib.lxml then [("xacml-context", uri)] else []) ++ attrib) text children

/-- `elem.text = value`, with the check that the value is a string or `None`. lxml checks at once, the
standard library when the tree is serialised.
Models: ndg/xacml/parsers/etree/context.py:388. Simplification: lxml also rejects control characters. -/
def valueText : Option Native → Except Exc (Option String)
  | none => .ok none
  | some (.str s) => .ok (some s)
  | some _ => .error .typeError

/-- `elem.set(name, value)`: the value must be a string, with the same remark.
Models: ndg/xacml/parsers/etree/context.py:376-379. -/
def attribText : Option String → Except Exc String
  | some s => .ok s
  | none => .error .typeError

/-- `AttributeElementTree.toXML`. Models: ndg/xacml/parsers/etree/context.py:356-392. -/
def writeAttribute (lib : Etree) (a : Attribute) : Except Exc XNode := do
  let ident ← attribText a.attributeId
  let dt ← attribText a.dataType
  let values ← forEach (fun v => do
    let t ← valueText v.value
    pure (makeElement lib "AttributeValue" "AttributeValue" [] t [])) a.values
  pure (makeElement lib "Attribute" contextNs
    ([("AttributeId", ident), ("DataType", dt)] ++ (match a.issuer with | some i => [("Issuer", i)] | none => []))
    none values)

/-- `SubjectElementTree.toXML`. Models: ndg/xacml/parsers/etree/context.py:126-148. -/
def writeSubject (lib : Etree) (s : CtxSubject) : Except Exc XNode := do
  let attributes ← forEach (writeAttribute lib) s.attributes
  pure (makeElement lib "Subject" contextNs [] none attributes)

/-- `ResourceElementTree.toXML`. Models: ndg/xacml/parsers/etree/context.py:182-215. -/
def writeResource (lib : Etree) (r : ResourceX) : Except Exc XNode := do
  let content ← match r.content with
    | none => pure []
    | some (.node n) => pure [n]
    | some .other => .error .typeError
  let attributes ← forEach (writeAttribute lib) r.attributes
  pure (makeElement lib "Resource" contextNs [] none (content ++ attributes))

/-- `ActionElementTree.toXML` and `EnvironmentElementTree.toXML`.
Models: ndg/xacml/parsers/etree/context.py:249-271, 302-324. -/
def writePart (lib : Etree) (name : String) (part : Option (List Attribute)) : Except Exc XNode :=
  match part with
  | none => .error .typeError
  | some l => do
    let attributes ← forEach (writeAttribute lib) l
    pure (makeElement lib name contextNs [] none attributes)

/-- `RequestElementTree.toXML`. Models: ndg/xacml/parsers/etree/context.py:38-74. -/
def writeRequest (lib : Etree) (r : RequestX) : Except Exc XNode := do
  let subjects ← forEach (writeSubject lib) r.subjects
  let resources ← forEach (writeResource lib) r.resources
  let action ← writePart lib "Action" r.action
  let environment ← writePart lib "Environment" r.environment
  pure (makeElement lib "Request" contextNs [] none (subjects ++ resources ++ [action, environment]))

/-! ## Reading -/

/-- `AttributeValueClass(childElem.text)`; the factory returns `None` for an unknown DataType.
Models: ndg/xacml/parsers/etree/context.py:427, ndg/xacml/core/attributevalue.py:130-148. -/
def makeValue (cls : Option AVClass) (text : Option String) : Except Exc AttrVal :=
  match cls with
  | none => .error .typeError
  | some c =>
    match text with
    | none => .ok c.new
    | some t => c.newWith (.str t)

/-- A child of Attribute. Models: ndg/xacml/parsers/etree/context.py:423-432. -/
def readAttributeChild (cls : Option AVClass) (c : XNode) : Except Exc AttrVal :=
  if c.name = "AttributeValue" then makeValue cls c.text else .error .xmlParseError

/-- `attribute.attributeId = elem.get(...)`: `None` is not a string.
Models: ndg/xacml/parsers/etree/context.py:412-413, ndg/xacml/core/attribute.py:105-108, 128-131. -/
def stringSetting : Option String → Except Exc String
  | some s => .ok s
  | none => .error .typeError

/-- `AttributeElementTree.fromXML`. Models: ndg/xacml/parsers/etree/context.py:395-433. -/
def readAttribute (lib : Etree) (classMap : List (String × AVClass)) (n : XNode) : Except Exc Attribute := do
  expectName n "Attribute"
  let ident ← stringSetting (n.attr "AttributeId")
  let dt ← stringSetting (n.attr "DataType")
  if !lib.getchildren then throw .attributeError
  if n.children.isEmpty then throw .xmlParseError
  let values ← forEach (readAttributeChild (classMap.lookup dt)) (elementChildren n.children)
  pure { attributeId := some ident, dataType := some dt, issuer := n.attr "Issuer", values := values }

/-- The Attribute children of Subject, Action and Environment; other children are ignored.
Models: ndg/xacml/parsers/etree/context.py:171-175, 291-295, 344-348. -/
def readAttributes (lib : Etree) (classMap : List (String × AVClass)) (n : XNode) : Except Exc (List Attribute) :=
  forEach (readAttribute lib classMap) ((elementChildren n.children).filter fun c => decide (c.name = "Attribute"))

/-- `ACCESS_SUBJECT`. Models: ndg/xacml/core/__init__.py:173, 193. -/
def accessSubject : String := "urn:oasis:names:tc:xacml:1.0:subject-category:access-subject"

/-- `SubjectElementTree.fromXML`. Models: ndg/xacml/parsers/etree/context.py:151-176. -/
def readSubject (lib : Etree) (classMap : List (String × AVClass)) (n : XNode) : Except Exc CtxSubject := do
  expectName n "Subject"
  let attributes ← readAttributes lib classMap n
  pure { category := some ((n.attr "SubjectCategory").getD accessSubject), attributes := attributes }

/-- The loop over the children of Resource. Models: ndg/xacml/parsers/etree/context.py:235-242. -/
def readResourceChildren (lib : Etree) (classMap : List (String × AVClass)) (r : ResourceX) :
    List XNode → Except Exc ResourceX
  | [] => .ok r
  | c :: l =>
    if c.name = "Attribute" then do
      let a ← readAttribute lib classMap c
      readResourceChildren lib classMap { r with attributes := r.attributes ++ [a] } l
    else if c.name = "ResourceContent" then
      readResourceChildren lib classMap { r with content := some (.node c) } l
    else readResourceChildren lib classMap r l

/-- `ResourceElementTree.fromXML`. Models: ndg/xacml/parsers/etree/context.py:218-243. -/
def readResource (lib : Etree) (classMap : List (String × AVClass)) (n : XNode) : Except Exc ResourceX := do
  expectName n "Resource"
  readResourceChildren lib classMap {} (elementChildren n.children)

/-- `ActionElementTree.fromXML` and `EnvironmentElementTree.fromXML`.
Models: ndg/xacml/parsers/etree/context.py:274-296, 327-349. -/
def readPart (lib : Etree) (classMap : List (String × AVClass)) (name : String) (n : XNode) :
    Except Exc (List Attribute) := do
  expectName n name
  readAttributes lib classMap n

/-- The loop over the children of Request. Models: ndg/xacml/parsers/etree/context.py:99-118. -/
def readRequestChildren (lib : Etree) (classMap : List (String × AVClass)) (r : RequestX) :
    List XNode → Except Exc RequestX
  | [] => .ok r
  | c :: l =>
    if c.name = "Subject" then do
      let s ← readSubject lib classMap c
      readRequestChildren lib classMap { r with subjects := r.subjects ++ [s] } l
    else if c.name = "Resource" then do
      let s ← readResource lib classMap c
      readRequestChildren lib classMap { r with resources := r.resources ++ [s] } l
    else if c.name = "Action" then do
      let a ← readPart lib classMap "Action" c
      readRequestChildren lib classMap { r with action := some a } l
    else if c.name = "Environment" then do
      let a ← readPart lib classMap "Environment" c
      readRequestChildren lib classMap { r with environment := some a } l
    else .error .xmlParseError

/-- `RequestElementTree.fromXML`; the reference to the element kept for attribute selectors is not part
of the data. Models: ndg/xacml/parsers/etree/context.py:77-120. -/
def readRequest (lib : Etree) (classMap : List (String × AVClass)) (n : XNode) : Except Exc RequestX := do
  expectName n "Request"
  readRequestChildren lib classMap {} (elementChildren n.children)

/-! ## Responses -/

/-- A result: its resource id, decision, status code and obligations (the latter two are neither read
nor written). Models: ndg/xacml/core/context/result.py:491-523. -/
structure ResultX where
  resourceId : Option String := none
  decision : Option Decision := none
  status : Option String := none
  obligations : Option Nat := none

/-- The string of a decision. Models: ndg/xacml/core/context/result.py:278-290, 372-378. -/
def Decision.text : Decision → String
  | .permit => "Permit"
  | .deny => "Deny"
  | .indeterminate => "Indeterminate"
  | .notApplicable => "NotApplicable"

/-- `ResultElementTree.toXML` and `DecisionElementTree.toXML`: with a resource id, `attrib.append` is
evaluated on a dict. Models: ndg/xacml/parsers/etree/context.py:495-526, 567-589. -/
def writeResult (lib : Etree) (r : ResultX) : Except Exc XNode :=
  match r.resourceId with
  | some _ => .error .attributeError
  | none =>
    match r.decision with
    | none => .error .typeError
    | some d => .ok (makeElement lib "Result" contextNs [] none
        [makeElement lib "Decision" contextNs [] (some d.text) []])

/-- `ResponseElementTree.toXML`. Models: ndg/xacml/parsers/etree/context.py:439-461. -/
def writeResponse (lib : Etree) (rs : List ResultX) : Except Exc XNode := do
  let results ← forEach (writeResult lib) rs
  pure (makeElement lib "Response" contextNs [] none results)

/-- `DecisionElementTree.fromXML`. Models: ndg/xacml/parsers/etree/context.py:592-610,
ndg/xacml/core/context/result.py:342-361. -/
def readDecision (n : XNode) : Except Exc Decision := do
  expectName n "Decision"
  match n.text with
  | none => .error .typeError
  | some s =>
    match Decision.ofString s with
    | some d => pure d
    | none => .error .attributeError

/-- The loop over the children of Result. Models: ndg/xacml/parsers/etree/context.py:549-557. -/
def readResultChildren (r : ResultX) : List XNode → Except Exc ResultX
  | [] => .ok r
  | c :: l =>
    if c.name = "Decision" then do
      let d ← readDecision c
      readResultChildren { r with decision := some d } l
    else .error .xmlParseError

/-- `ResultElementTree.fromXML`. Models: ndg/xacml/parsers/etree/context.py:529-561. -/
def readResult (n : XNode) : Except Exc ResultX := do
  expectName n "Result"
  readResultChildren { resourceId := n.attr "ResourceId" } (elementChildren n.children)

/-- A child of Response. Models: ndg/xacml/parsers/etree/context.py:480-488. -/
def readResponseChild (c : XNode) : Except Exc ResultX :=
  if c.name = "Result" then readResult c else .error .xmlParseError

/-- `ResponseElementTree.fromXML`. Models: ndg/xacml/parsers/etree/context.py:464-489. -/
def readResponse (n : XNode) : Except Exc (List ResultX) := do
  expectName n "Response"
  forEach readResponseChild (elementChildren n.children)

/-! ## Documents -/

mutual
/-- Serialising a tree and parsing it again: an empty text comes back as no text. -/
def reparse : XNode → XNode
  | .elem tag a t cs => .elem tag a (if t = some "" then none else t) (reparseL cs)
  | .other => .other
/-- `reparse` on children. -/
def reparseL : List XNode → List XNode
  | [] => []
  | n :: l => reparse n :: reparseL l
end

end Xacml
