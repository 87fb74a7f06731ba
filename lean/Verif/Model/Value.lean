import Verif.Model.Py

/-!
# Attribute value classes, attribute values, bags
-/
namespace Xacml

/-- An `AttributeValue` derived class. `uid` stands for the identity of the Python class
object; `ancestors` are the uids of its proper superclasses below `AttributeValue`.
Models: ndg/xacml/core/attributevalue.py:18-161 (class variables TYPE, IDENTIFIER).
Simplification: classes whose IDENTIFIER is not a string cannot be instantiated
(attributevalue.py:145 would raise TypeError) and are not represented. -/
structure AVClass where
  uid : String
  identifier : String
  native : NativeType
  ancestors : List String
  deriving DecidableEq

/-- `issubclass(c, d)` for attribute value classes. -/
def AVClass.isSub (c d : AVClass) : Bool := c.uid == d.uid || d.uid ∈ c.ancestors

/-- An instance of an attribute value class: its class, its `dataType` attribute and its
`value` (`none` = never set). Models: ndg/xacml/core/attributevalue.py:128-185,
ndg/xacml/core/expression.py:30-45. -/
structure AttrVal where
  cls : AVClass
  dataType : String
  value : Option Native
  deriving DecidableEq

/-- `isinstance(v, cls)`. -/
def AttrVal.isInst (v : AttrVal) (c : AVClass) : Bool := v.cls.isSub c

/-- `AttributeValue.__init__(value=None)` without a value.
Models: ndg/xacml/core/attributevalue.py:130-148. -/
def AVClass.new (c : AVClass) : AttrVal := { cls := c, dataType := c.identifier, value := none }

/-- The `value` setter; the argument is a native value or `None`.
Models: ndg/xacml/core/attributevalue.py:170-183. -/
def AttrVal.setValue (v : AttrVal) (x : Option Native) : Except Exc AttrVal :=
  match x with
  | some n => if n.isInstance v.cls.native then .ok { v with value := some n } else .error .typeError
  | none => .error .typeError

/-- `cls(value)` with a value that is not `None`.
Models: ndg/xacml/core/attributevalue.py:130-148. -/
def AVClass.newWith (c : AVClass) (n : Native) : Except Exc AttrVal := c.new.setValue (some n)

/-- `AttributeValue.__eq__(self, attrVal)`. Models: ndg/xacml/core/attributevalue.py:154-161. -/
def AttrVal.dunderEq (self other : AttrVal) : Except Exc Bool :=
  if other.isInst self.cls then .ok (optNativeEq self.value other.value) else .error .typeError

/-- The Python expression `v == w` on attribute values: when the right operand's class is a
proper subclass of the left operand's class Python tries the reflected method first.
Models: ndg/xacml/core/attributevalue.py:154-161 and Python rich comparison. -/
def AttrVal.pyEq (v w : AttrVal) : Except Exc Bool :=
  if v.cls.uid ≠ w.cls.uid ∧ v.cls.uid ∈ w.cls.ancestors then w.dunderEq v else v.dunderEq w

/-- `TypedList` used as a bag: element type (`none` when the class factory returned `None`)
and items. Models: ndg/xacml/utils/__init__.py:50-118 as used in attributedesignator.py. -/
structure Bag where
  elementType : Option AVClass
  items : List AttrVal
  deriving DecidableEq

/-- Values that expressions can evaluate to. `opaque_ t` is any other object, with its
truthiness (a custom function may return anything). -/
inductive PyVal where
  | av (v : AttrVal)
  | bag (b : Bag)
  | native (n : Native)
  | none
  | opaque_ (truthy : Bool)
  deriving DecidableEq

/-- Python truthiness. `AttributeValue` defines neither `__bool__` nor `__len__`, so every
attribute value object is true; a bag is a `list`. -/
def PyVal.truthy : PyVal → Bool
  | .av _ => true
  | .bag b => !b.items.isEmpty
  | .native n => n.truthy
  | .none => false
  | .opaque_ t => t

/-- `isinstance(x, cls)` for an attribute value class; a class of `None` makes Python raise
TypeError, so `none` here means "raises". -/
def PyVal.isInst (x : PyVal) (c : AVClass) : Bool :=
  match x with
  | .av v => v.isInst c
  | _ => false

/-- A Python iterable: a re-iterable sequence, or a one-shot iterator (generator) which is
exhausted after one traversal. -/
structure PyIter where
  oneShot : Bool
  items : List PyVal

/-- The items of `xs`, all checked to be instances of `et`. -/
def checkItems (et : Option AVClass) : List PyVal → Except Exc (List AttrVal)
  | [] => .ok []
  | x :: xs =>
    match et, x with
    | some c, .av v =>
      if v.isInst c then
        match checkItems et xs with
        | .ok vs => .ok (v :: vs)
        | .error e => .error e
      else .error .typeError
    | _, _ => .error .typeError

/-- `TypedList.extend(iter)`: a first traversal checks every item, a second one adds them.
A one-shot iterator is exhausted by the first traversal, so nothing is added.
Models: ndg/xacml/utils/__init__.py:82-93. -/
def Bag.extend (b : Bag) (it : PyIter) : Except Exc Bag :=
  match checkItems b.elementType it.items with
  | .ok vs => .ok { b with items := b.items ++ (if it.oneShot then [] else vs) }
  | .error e => .error e

/-- `x in bag`: compare with each item in turn, item on the left, stopping at the first
equal one; comparing an attribute value with another kind of object raises TypeError.
Models: use of `in` at ndg/xacml/core/attributedesignator.py:201 (Python list membership). -/
def memBag (x : PyVal) : List AttrVal → Except Exc Bool
  | [] => .ok false
  | y :: ys =>
    match x with
    | .av v =>
      match y.pyEq v with
      | .ok true => .ok true
      | .ok false => memBag x ys
      | .error e => .error e
    | _ => .error .typeError

/-- The 16 standard classes created at import time.
Models: ndg/xacml/core/attributevalue.py:45-126, 278-286. -/
def xsd (s : String) : String := "http://www.w3.org/2001/XMLSchema#" ++ s

/-- TYPE_NAMES zipped with TYPE_URIS and NATIVE_TYPES.
Models: ndg/xacml/core/attributevalue.py:51-125. -/
def typeTable : List (String × String × NativeType) := [
  ("String", xsd "string", .str),
  ("AnyURI", xsd "anyURI", .str),
  ("Integer", xsd "integer", .int),
  ("Boolean", xsd "boolean", .bool),
  ("Double", xsd "double", .float),
  ("Date", xsd "date", .datetime),
  ("DateTime", xsd "dateTime", .datetime),
  ("Time", xsd "time", .datetime),
  ("DayTimeDuration", "http://www.w3.org/TR/2002/WD-xquery-operators-20020816#dayTimeDuration", .timedelta),
  ("YearMonthDuration", "http://www.w3.org/TR/2002/WD-xquery-operators-20020816#yearMonthDuration", .timedelta),
  ("X500Name", "urn:oasis:names:tc:xacml:1.0:data-type:x500Name", .str),
  ("Rfc822Name", "urn:oasis:names:tc:xacml:1.0:data-type:rfc822Name", .str),
  ("HexBinary", xsd "hexBinary", .int),
  ("Base64Binary", xsd "base64Binary", .notImplemented),
  ("IpAddress", "urn:oasis:names:tc:xacml:2.0:data-type:ipAddress", .str),
  ("DnsName", "urn:oasis:names:tc:xacml:2.0:data-type:dnsName", .str)]

/-- The class created for a row of the table (name + "AttributeValue").
Models: ndg/xacml/core/attributevalue.py:278-286. -/
def stdClass (row : String × String × NativeType) : AVClass :=
  { uid := row.1 ++ "AttributeValue", identifier := row.2.1, native := row.2.2, ancestors := [] }

/-- `IDENTIFIER2CLASS_MAP` as built at import time.
Models: ndg/xacml/core/attributevalue.py:274-289. -/
def stdClassMap : List (String × AVClass) := typeTable.map fun r => (r.2.1, stdClass r)

/-- String class, used as TYPE_REST by concatenate (functions/v2/concatenate.py:28-29). -/
def stringClass : AVClass := stdClass ("String", xsd "string", .str)
/-- Boolean class. -/
def booleanClass : AVClass := stdClass ("Boolean", xsd "boolean", .bool)
/-- Integer class. -/
def integerClass : AVClass := stdClass ("Integer", xsd "integer", .int)
/-- AnyURI class. -/
def anyURIClass : AVClass := stdClass ("AnyURI", xsd "anyURI", .str)
/-- Double class. -/
def doubleClass : AVClass := stdClass ("Double", xsd "double", .float)

/-- `AttributeValueClassFactory.__call__(identifier)`; the identifier may be `None`.
Models: ndg/xacml/core/attributevalue.py:307-315 (and VettedDict.get,
ndg/xacml/utils/__init__.py:232-247). -/
def classLookup (m : List (String × AVClass)) (dataType : Option String) : Option AVClass :=
  match dataType with
  | some d => m.lookup d
  | none => none

end Xacml
