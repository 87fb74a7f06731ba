import Verif.Spec.Reader
import Verif.Spec.Documents
import Verif.Model.ContextXml

/-!
# Request and response documents
-/
namespace Xacml.Spec

/-! ## Grammar -/

/-- An AttributeValue element of a request, with the DataType of its Attribute: a value of the class
registered for the DataType, whose native type must be string if there is text. -/
def IsCtxValue (classMap : List (String × AVClass)) (dt : String) (n : XNode) (v : AttrVal) : Prop :=
  n.name = "AttributeValue" ∧ ∃ c, classMap.lookup dt = some c ∧ v.cls = c ∧ v.dataType = c.identifier ∧
    ((n.text = none ∧ v.value = none) ∨ ∃ t, n.text = some t ∧ c.native = .str ∧ v.value = some (.str t))

/-- An Attribute element of a request. -/
def IsAttribute (classMap : List (String × AVClass)) (n : XNode) (a : Attribute) : Prop :=
  n.name = "Attribute" ∧ n.children ≠ [] ∧
  ∃ i dt, n.attr "AttributeId" = some i ∧ a.attributeId = some i ∧ n.attr "DataType" = some dt ∧ a.dataType = some dt ∧
    a.issuer = n.attr "Issuer" ∧ Each (IsCtxValue classMap dt) (elems n) a.values

/-- The attributes of a part of a request. -/
def HasAttributes (classMap : List (String × AVClass)) (n : XNode) (l : List Attribute) : Prop :=
  Each (IsAttribute classMap) (childrenNamed n "Attribute") l

/-- A Subject element; the category defaults to access-subject. -/
def IsSubject (classMap : List (String × AVClass)) (n : XNode) (s : CtxSubject) : Prop :=
  n.name = "Subject" ∧ HasAttributes classMap n s.attributes ∧
  ((∃ c, n.attr "SubjectCategory" = some c ∧ s.category = some c) ∨
   (n.attr "SubjectCategory" = none ∧
      s.category = some "urn:oasis:names:tc:xacml:1.0:subject-category:access-subject"))

/-- A Resource element; the last ResourceContent child counts. -/
def IsResource (classMap : List (String × AVClass)) (n : XNode) (r : ResourceX) : Prop :=
  n.name = "Resource" ∧ HasAttributes classMap n r.attributes ∧
  r.content = (childrenNamed n "ResourceContent").getLast?.map .node

/-- An Action or Environment element. -/
def IsPart (classMap : List (String × AVClass)) (name : String) (n : XNode) (l : List Attribute) : Prop :=
  n.name = name ∧ HasAttributes classMap n l

/-- A Request element; the last Action and the last Environment count. -/
def IsRequest (classMap : List (String × AVClass)) (n : XNode) (r : RequestX) : Prop :=
  n.name = "Request" ∧ OnlyChildren n ["Subject", "Resource", "Action", "Environment"] ∧
  Each (IsSubject classMap) (childrenNamed n "Subject") r.subjects ∧
  Each (IsResource classMap) (childrenNamed n "Resource") r.resources ∧
  LastOf (IsPart classMap "Action") (childrenNamed n "Action") r.action ∧
  LastOf (IsPart classMap "Environment") (childrenNamed n "Environment") r.environment

/-- The text of a decision. -/
def decisionWord : Decision → String
  | .permit => "Permit"
  | .deny => "Deny"
  | .indeterminate => "Indeterminate"
  | .notApplicable => "NotApplicable"

/-- A Decision element. -/
def IsDecision (n : XNode) (d : Decision) : Prop := n.name = "Decision" ∧ n.text = some (decisionWord d)

/-- A Result element: all its children are decisions, the last one counts. -/
def IsResult (n : XNode) (r : ResultX) : Prop :=
  n.name = "Result" ∧ r.resourceId = n.attr "ResourceId" ∧ LastOf IsDecision (elems n) r.decision ∧
  r.status = none ∧ r.obligations = none

/-- A Response element. -/
def IsResponse (n : XNode) (rs : List ResultX) : Prop := n.name = "Response" ∧ Each IsResult (elems n) rs

/-! ## Round trips -/

/-- How a context gets from the writer to the reader: as a tree, or as a document, in which an empty text
cannot be told from no text. -/
inductive Medium where
  | tree | document

/-- What the reader gets for a tree that was written. -/
def Medium.carry : Medium → XNode → XNode
  | .tree => id
  | .document => reparse

/-- What the reader gets for a text that was written. -/
def Medium.text : Medium → Option String → Option String
  | .tree, t => t
  | .document, t => if t = some "" then none else t

/-- What comes back of a value written under a DataType: nothing but strings can be written; what is read
is of the class of the DataType. -/
def ValueBack (m : Medium) (classMap : List (String × AVClass)) (dt : String) (v v' : AttrVal) : Prop :=
  ∃ c t, classMap.lookup dt = some c ∧ v'.cls = c ∧ v'.dataType = c.identifier ∧ v.value = t.map .str ∧
    v'.value = (m.text t).map .str ∧ ((m.text t).isSome → c.native = .str)

/-- What comes back of an attribute. -/
def AttributeBack (m : Medium) (classMap : List (String × AVClass)) (a a' : Attribute) : Prop :=
  ∃ i dt, a.attributeId = some i ∧ a'.attributeId = some i ∧ a.dataType = some dt ∧ a'.dataType = some dt ∧
    a'.issuer = a.issuer ∧ a.values ≠ [] ∧ Each (ValueBack m classMap dt) a.values a'.values

/-- What comes back of a subject: its category is forgotten. -/
def SubjectBack (m : Medium) (classMap : List (String × AVClass)) (s s' : CtxSubject) : Prop :=
  s'.category = some "urn:oasis:names:tc:xacml:1.0:subject-category:access-subject" ∧
  Each (AttributeBack m classMap) s.attributes s'.attributes

/-- What comes back of a resource: content that is not an element cannot be written; content that is not
called ResourceContent is dropped or, if it is called Attribute, taken for one. -/
def ResourceBack (m : Medium) (classMap : List (String × AVClass)) (r r' : ResourceX) : Prop :=
  match r.content with
  | none => r'.content = none ∧ Each (AttributeBack m classMap) r.attributes r'.attributes
  | some .other => False
  | some (.node n) =>
    if n.name = "ResourceContent" then
      r'.content = some (.node (m.carry n)) ∧ Each (AttributeBack m classMap) r.attributes r'.attributes
    else if n.name = "Attribute" then
      r'.content = none ∧ ∃ a as, IsAttribute classMap (m.carry n) a ∧ r'.attributes = a :: as ∧
        Each (AttributeBack m classMap) r.attributes as
    else r'.content = none ∧ Each (AttributeBack m classMap) r.attributes r'.attributes

/-- What comes back of an action or an environment. -/
def PartBack (m : Medium) (classMap : List (String × AVClass)) (p p' : Option (List Attribute)) : Prop :=
  ∃ l l', p = some l ∧ p' = some l' ∧ Each (AttributeBack m classMap) l l'

/-- What comes back of a request. -/
def RequestBack (m : Medium) (classMap : List (String × AVClass)) (r r' : RequestX) : Prop :=
  Each (SubjectBack m classMap) r.subjects r'.subjects ∧ Each (ResourceBack m classMap) r.resources r'.resources ∧
  PartBack m classMap r.action r'.action ∧ PartBack m classMap r.environment r'.environment

/-- A value that can be written and read: a string or nothing, of the class registered for the DataType.
The empty string does not survive in a document. -/
def GoodValue (m : Medium) (classMap : List (String × AVClass)) (dt : String) (v : AttrVal) : Prop :=
  ∃ c, classMap.lookup dt = some c ∧ v.cls = c ∧ v.dataType = c.identifier ∧
    (v.value = none ∨ ∃ s, v.value = some (.str s) ∧ c.native = .str ∧ (m = .document → s ≠ ""))

/-- An attribute that can be written and read. -/
def GoodAttribute (m : Medium) (classMap : List (String × AVClass)) (a : Attribute) : Prop :=
  ∃ i dt, a.attributeId = some i ∧ a.dataType = some dt ∧ a.values ≠ [] ∧ ∀ v ∈ a.values, GoodValue m classMap dt v

/-- A request that can be written and read: all values are strings, all subjects are access subjects,
resource contents are proper, there are an action and an environment. -/
def GoodRequest (m : Medium) (classMap : List (String × AVClass)) (r : RequestX) : Prop :=
  (∀ s ∈ r.subjects, s.category = some "urn:oasis:names:tc:xacml:1.0:subject-category:access-subject" ∧
    ∀ a ∈ s.attributes, GoodAttribute m classMap a) ∧
  (∀ s ∈ r.resources, (∀ a ∈ s.attributes, GoodAttribute m classMap a) ∧
    (s.content = none ∨ ∃ n, s.content = some (.node n) ∧ n.name = "ResourceContent" ∧ m.carry n = n)) ∧
  (∃ l, r.action = some l ∧ ∀ a ∈ l, GoodAttribute m classMap a) ∧
  (∃ l, r.environment = some l ∧ ∀ a ∈ l, GoodAttribute m classMap a)

/-- What comes back of a result: its decision. -/
def ResultBack (r r' : ResultX) : Prop :=
  r.resourceId = none ∧ ∃ d, r.decision = some d ∧
    r' = { resourceId := none, decision := some d, status := none, obligations := none }

/-! ## Documents that differ in comments or namespaces -/

/-- The same request, save for resource contents, which are related by `R`. -/
def SameRequest (R : XNode → XNode → Prop) (r r' : RequestX) : Prop :=
  r'.subjects = r.subjects ∧ r'.action = r.action ∧ r'.environment = r.environment ∧
  Each (fun a b => b.attributes = a.attributes ∧
    ((a.content = none ∧ b.content = none) ∨
      ∃ n n', a.content = some (.node n) ∧ b.content = some (.node n') ∧ R n n')) r.resources r'.resources

/-- A comment added anywhere but before text in an AttributeValue. -/
abbrev CommentOutsideValue := CommentAdded
  (fun tag post => localPart tag ≠ "AttributeValue" ∨ ∀ s, Doc.text s ∉ post) (fun _ => True)

/-- The same tree, or trees of documents one of which has a comment more. -/
def ContentCommented (n n' : XNode) : Prop :=
  n' = n ∨ ∃ c c', CommentAnywhere c c' ∧ n = c.lxmlTree ∧ n' = c'.lxmlTree

end Xacml.Spec
