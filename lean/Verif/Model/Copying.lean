import Verif.Model.Policy

/-!
# Copying and pickling

`copy.copy`, `copy.deepcopy` and `pickle` (protocols 2 and up, including the default) on the
objects of the package. All three call `__getstate__`, make an object of the same class without
calling `__init__`, and hand it the state: through `__setstate__` if there is one, otherwise
through `__dict__`, which objects all of whose classes have `__slots__` do not have.

Simplifications: objects are trees (shared parts are copied once per occurrence); strings,
numbers, XML elements, classes, functions, context handlers and selectors are atoms, which copy
and pickle well; the fields of an object are copied in the order in which they are listed; the
four fields of `XacmlCoreBase` are atoms.
-/
namespace Xacml

/-- What can go wrong. -/
inductive CopyExc where
  | attributeError | typeError | picklingError
  deriving DecidableEq

/-- One class of the package: `slots` is `none` if the class has no `__slots__`; `getstate` says
whether it defines `__getstate__` (always: the mangled names of its own `__slots__`), and if so
whether it extends the dictionary of the superclass. -/
structure ClassDef where
  name : String
  slots : Option (List String)
  getstate : Option Bool
  setstate : Bool

/-- Models: ndg/xacml/core/__init__.py:15-121. -/
def coreBaseDef : ClassDef :=
  ⟨"XacmlCoreBase", some ["__xmlns", "__reader", "__writer", "__elem"], some false, false⟩
/-- Models: ndg/xacml/core/context/__init__.py:18-60. -/
def contextBaseDef : ClassDef := ⟨"XacmlContextBase", some [], some true, true⟩
/-- Models: ndg/xacml/core/context/__init__.py:62-97. -/
def requestChildDef : ClassDef := ⟨"RequestChildBase", some ["__attributes"], some true, false⟩
/-- Models: ndg/xacml/core/context/subject.py:15-58 (no `__getstate__`). -/
def subjectDef : ClassDef := ⟨"Subject", some ["__subjectCategory"], none, false⟩
/-- Models: ndg/xacml/core/context/resource.py:15-75; the conversion of XML elements is left out. -/
def resourceDef : ClassDef := ⟨"Resource", some ["__resourceContent"], some true, true⟩
/-- Models: ndg/xacml/core/context/action.py:15-17 (no `__slots__`). -/
def actionDef : ClassDef := ⟨"Action", none, none, false⟩
/-- Models: ndg/xacml/core/context/environment.py:15-17 (no `__slots__`). -/
def environmentDef : ClassDef := ⟨"Environment", none, none, false⟩
/-- Models: ndg/xacml/core/context/request.py:25-57, 173-189. -/
def requestDef : ClassDef :=
  ⟨"Request", some ["__subjects", "__resources", "__action", "__environment", "__ctxHandler", "__attributeSelector"],
    some true, false⟩
/-- Models: ndg/xacml/core/context/response.py:20-61. -/
def responseDef : ClassDef := ⟨"Response", some ["__results"], some true, false⟩
/-- Models: ndg/xacml/core/context/result.py:483-507, 646-661. -/
def resultDef : ClassDef := ⟨"Result", some ["__resourceId", "__decision", "__status", "__obligations"], some true, false⟩
/-- Models: ndg/xacml/core/context/result.py:115-145 (no `__getstate__`). -/
def statusDef : ClassDef := ⟨"Status", some ["__statusCode", "__statusMessage", "__statusDetail"], none, false⟩
/-- Models: ndg/xacml/core/context/result.py:19-70 (no `__getstate__`). -/
def statusCodeDef : ClassDef := ⟨"StatusCode", some ["__value", "__childStatusCode"], none, false⟩
/-- Models: ndg/xacml/core/context/result.py:242-341; the four subclasses (416-474) add nothing. -/
def decisionDef : ClassDef := ⟨"Decision", some ["__value"], some false, true⟩
/-- Models: ndg/xacml/core/attribute.py:17-47, 143-159 (the superclass's state is left out). -/
def attributeDef : ClassDef :=
  ⟨"Attribute", some ["__attributeValues", "__dataType", "__attributeId", "__issuer"], some false, false⟩
/-- Models: ndg/xacml/core/expression.py:17-78. -/
def expressionDef : ClassDef := ⟨"Expression", some ["__dataType"], some true, false⟩
/-- Models: ndg/xacml/core/attributevalue.py:18-213. -/
def attributeValueDef : ClassDef := ⟨"AttributeValue", some ["__value"], some true, false⟩
/-- One of the sixteen classes made by `type(...)`. Models: ndg/xacml/core/attributevalue.py:274-289. -/
def typeDef : ClassDef := ⟨"<type>AttributeValue", none, none, false⟩
/-- Models: ndg/xacml/core/obligation.py:142-172. -/
def obligationDef : ClassDef := ⟨"Obligation", some ["__attributeAssignments", "__obligationId", "__fulfillOn"], none, false⟩
/-- Models: ndg/xacml/core/rule.py:22-75. -/
def effectDef : ClassDef := ⟨"Effect", some ["__value"], some false, true⟩
/-- Models: ndg/xacml/core/policybase.py:29-35. -/
def policyBaseDef : ClassDef := ⟨"PolicyBase", some [], none, false⟩
/-- Models: ndg/xacml/core/policy.py:36-107. -/
def policyDef : ClassDef :=
  ⟨"Policy", some ["__policyId", "__version", "__ruleCombiningAlgId", "__description", "__policyDefaults", "__target",
    "__attr", "__obligations", "__ruleCombiningAlgFactory", "__ruleCombiningAlg"], none, false⟩
/-- Models: ndg/xacml/core/policyset.py:28-104. -/
def policySetDef : ClassDef :=
  ⟨"PolicySet", some ["__policySetId", "__version", "__policyCombiningAlgId", "__description", "__policySetDefaults",
    "__target", "__policies", "__obligations", "__policyCombiningAlgFactory", "__policyCombiningAlg"], none, false⟩
/-- Models: ndg/xacml/core/rule.py:183-218. -/
def ruleDef : ClassDef := ⟨"Rule", some ["__target", "__condition", "__description", "__id", "__effect"], none, false⟩
/-- Models: ndg/xacml/core/target.py:28-61. -/
def targetDef : ClassDef := ⟨"Target", some ["__subjects", "__resources", "__actions", "__environments"], none, false⟩
/-- Models: ndg/xacml/core/condition.py:16-33. -/
def conditionDef : ClassDef := ⟨"Condition", some ["__expression"], none, false⟩
/-- Models: ndg/xacml/core/__init__.py:123-131. -/
def xacmlPolicyBaseDef : ClassDef := ⟨"XacmlPolicyBase", some [], none, false⟩
/-- Models: ndg/xacml/core/__init__.py:141-154. -/
def targetChildBaseDef : ClassDef := ⟨"TargetChildBase", some ["__matches"], none, false⟩
/-- Models: ndg/xacml/core/subject.py:16-28, resource.py:16-28, action.py:16-29, environment.py:16-28. -/
def targetChildDef : ClassDef := ⟨"<target child>", some [], none, false⟩
/-- Models: ndg/xacml/core/match.py:25-70. -/
def matchBaseDef : ClassDef :=
  ⟨"MatchBase", some ["__attributeValue", "__attributeDesignator", "__attributeSelector", "__matchId", "__function",
    "__functionMap", "__loadFunctionFromId"], none, false⟩
/-- Models: ndg/xacml/core/match.py:350-370 (no `__slots__`). -/
def matchDef : ClassDef := ⟨"<match>", none, none, false⟩
/-- Models: ndg/xacml/core/attributedesignator.py:24-54. -/
def designatorBaseDef : ClassDef :=
  ⟨"AttributeDesignator", some ["__attributeId", "__issuer", "__mustBePresent", "__attributeValueFactory"], none, false⟩
/-- Models: ndg/xacml/core/attributedesignator.py:141-147, 219-225, 272-278, 325-331. -/
def designatorDef : ClassDef := ⟨"<designator>", some [], none, false⟩
/-- Models: ndg/xacml/core/attributeselector.py:23-44. -/
def selectorDef : ClassDef :=
  ⟨"AttributeSelector", some ["__mustBePresent", "__requestContextPath", "__attributeValueFactory"], none, false⟩
/-- Models: ndg/xacml/core/apply.py:19-49. -/
def applyDef : ClassDef :=
  ⟨"Apply", some ["__functionId", "__function", "__functionMap", "__loadFunctionFromId", "__expressions"], none, false⟩
/-- Models: ndg/xacml/core/policydefaults.py:15-29. -/
def policyDefaultsDef : ClassDef := ⟨"PolicyDefaults", some ["__xpathVersion"], none, false⟩

/-- The classes of which there are instances. -/
inductive Cls where
  | request | subject | resource | action | environment | attribute | value
  | response | result | status | statusCode | decision | obligation
  | policy | policySet | rule | effect | target | targetChild | match_ | condition
  | designator | selector | apply | policyDefaults
  deriving DecidableEq

/-- The class and its superclasses (without `object`). Models: the class statements cited above. -/
def Cls.mro : Cls → List ClassDef
  | .request => [requestDef, contextBaseDef, coreBaseDef]
  | .subject => [subjectDef, requestChildDef, contextBaseDef, coreBaseDef]
  | .resource => [resourceDef, requestChildDef, contextBaseDef, coreBaseDef]
  | .action => [actionDef, requestChildDef, contextBaseDef, coreBaseDef]
  | .environment => [environmentDef, requestChildDef, contextBaseDef, coreBaseDef]
  | .attribute => [attributeDef, coreBaseDef]
  | .value => [typeDef, attributeValueDef, expressionDef, coreBaseDef]
  | .response => [responseDef, contextBaseDef, coreBaseDef]
  | .result => [resultDef, contextBaseDef, coreBaseDef]
  | .status => [statusDef, contextBaseDef, coreBaseDef]
  | .statusCode => [statusCodeDef, contextBaseDef, coreBaseDef]
  | .decision => [decisionDef]
  | .obligation => [obligationDef, coreBaseDef]
  | .policy => [policyDef, policyBaseDef, coreBaseDef]
  | .policySet => [policySetDef, policyBaseDef, coreBaseDef]
  | .rule => [ruleDef, coreBaseDef]
  | .effect => [effectDef]
  | .target => [targetDef, coreBaseDef]
  | .targetChild => [targetChildDef, targetChildBaseDef, xacmlPolicyBaseDef, coreBaseDef]
  | .match_ => [matchDef, matchBaseDef, coreBaseDef]
  | .condition => [conditionDef, coreBaseDef]
  | .designator => [designatorDef, designatorBaseDef, expressionDef, coreBaseDef]
  | .selector => [selectorDef, expressionDef, coreBaseDef]
  | .apply => [applyDef, expressionDef, coreBaseDef]
  | .policyDefaults => [policyDefaultsDef, coreBaseDef]

/-- Python's mangling of a private name. -/
def mangle (cls slot : String) : String := "_" ++ cls ++ slot

/-- The names that the `__getstate__` found first puts in the dictionary (superclass first).
Models: ndg/xacml/core/__init__.py:105-121 and the other `__getstate__` cited above. -/
def stateNames : List ClassDef → List String
  | [] => []
  | c :: cs =>
    match c.getstate with
    | none => stateNames cs
    | some extends_ => (if extends_ then stateNames cs else []) ++ (c.slots.getD []).map (mangle c.name)

/-- `self` has a `__dict__`: some class has no `__slots__`. -/
def Cls.hasDict (c : Cls) : Bool := c.mro.any fun d => d.slots.isNone

/-- Some class defines `__setstate__`. Models: ndg/xacml/core/context/__init__.py:57-60,
ndg/xacml/core/context/resource.py:70-75, ndg/xacml/core/context/result.py:333-341,
ndg/xacml/core/rule.py:66-73. -/
def Cls.hasSetstate (c : Cls) : Bool := c.mro.any ClassDef.setstate

/-- Atoms. -/
inductive Atom where
  | none
  | str (s : String)
  | native (v : Native)
  | opaque (n : Nat)
  deriving DecidableEq

/-- An object: an atom, a `TypedList` with the name of its element type, or an instance and its
fields that are set (by mangled name). -/
inductive Obj where
  | atom (a : Atom)
  | typed (elementType : String) (items : List Obj)
  | inst (c : Cls) (fields : List (String × Obj))

/-- `isinstance(x, elementType)`. -/
def Obj.isInstance (t : String) : Obj → Bool
  | .inst c _ => c.mro.any fun d => d.name == t
  | _ => false

/-- Reading a field, or the property that returns it. -/
def Obj.read (field : String) : Obj → Except CopyExc Obj
  | .inst _ fs =>
    match fs.lookup field with
    | some o => .ok o
    | none => .error .attributeError
  | _ => .error .attributeError

/-- `__getstate__` finds all it wants. -/
def Cls.stateComplete (c : Cls) (fields : List (String × Obj)) : Bool :=
  (stateNames c.mro).all fun n => fields.any fun f => f.1 == n

/-- The new object when the state is there. What is put in `__dict__` under the name of a slot
cannot be read, so nothing is set in that case. Models: Python's copy._reconstruct and pickle.load_build. -/
def Cls.rebuild (c : Cls) (state : List (String × Obj)) : Except CopyExc Obj :=
  if c.hasSetstate then .ok (.inst c state)
  else if c.hasDict then .ok (.inst c [])
  else .error .attributeError

mutual
/-- `copy.deepcopy(x)`; a list gets its state first and then its items, one by one.
Models: Python's copy.deepcopy, copy._reconstruct, and ndg/xacml/utils/__init__.py:109-119. -/
def Obj.deepcopy : Obj → Except CopyExc Obj
  | .atom a => .ok (.atom a)
  | .typed t items => do .ok (.typed t (← Obj.deepcopyItems t items))
  | .inst c fields =>
    if c.stateComplete fields then do c.rebuild (← Obj.deepcopyFields (stateNames c.mro) fields)
    else .error .attributeError
def Obj.deepcopyItems (t : String) : List Obj → Except CopyExc (List Obj)
  | [] => .ok []
  | o :: os => do
    let o' ← Obj.deepcopy o
    if o'.isInstance t then do .ok (o' :: (← Obj.deepcopyItems t os)) else .error .typeError
def Obj.deepcopyFields (names : List String) : List (String × Obj) → Except CopyExc (List (String × Obj))
  | [] => .ok []
  | (n, o) :: fs =>
    if names.contains n then do
      let o' ← Obj.deepcopy o
      .ok ((n, o') :: (← Obj.deepcopyFields names fs))
    else Obj.deepcopyFields names fs
end

/-- `copy.copy(x)`. Models: Python's copy.copy, copy._reconstruct. -/
def Obj.copy : Obj → Except CopyExc Obj
  | .atom a => .ok (.atom a)
  | .typed t items => if items.all (Obj.isInstance t) then .ok (.typed t items) else .error .typeError
  | .inst c fields =>
    if c.stateComplete fields then c.rebuild (fields.filter fun f => (stateNames c.mro).contains f.1)
    else .error .attributeError

mutual
/-- `pickle.dumps(x)`: what is in the pickle. The classes made by `type(...)` cannot be found by
name. Models: Python's pickle.Pickler.save_reduce. -/
def Obj.dumps : Obj → Except CopyExc Obj
  | .atom a => .ok (.atom a)
  | .typed t items => do .ok (.typed t (← Obj.dumpsItems items))
  | .inst c fields =>
    if c.stateComplete fields then
      if c = .value then .error .picklingError
      else do .ok (.inst c (← Obj.dumpsFields (stateNames c.mro) fields))
    else .error .attributeError
def Obj.dumpsItems : List Obj → Except CopyExc (List Obj)
  | [] => .ok []
  | o :: os => do .ok ((← Obj.dumps o) :: (← Obj.dumpsItems os))
def Obj.dumpsFields (names : List String) : List (String × Obj) → Except CopyExc (List (String × Obj))
  | [] => .ok []
  | (n, o) :: fs =>
    if names.contains n then do
      let o' ← Obj.dumps o
      .ok ((n, o') :: (← Obj.dumpsFields names fs))
    else Obj.dumpsFields names fs
end

mutual
/-- `pickle.loads(x)`: the items of a list are added, with `append` or `extend`, before the list
gets its state, that is its element type; both methods look the element type up.
Models: Python's pickle._Unpickler.load_appends and load_build, ndg/xacml/utils/__init__.py:83-119. -/
def Obj.loads : Obj → Except CopyExc Obj
  | .atom a => .ok (.atom a)
  | .typed t items => do
    let items' ← Obj.loadsItems items
    if items'.isEmpty then .ok (.typed t []) else .error .attributeError
  | .inst c state => do c.rebuild (← Obj.loadsFields state)
def Obj.loadsItems : List Obj → Except CopyExc (List Obj)
  | [] => .ok []
  | o :: os => do .ok ((← Obj.loads o) :: (← Obj.loadsItems os))
def Obj.loadsFields : List (String × Obj) → Except CopyExc (List (String × Obj))
  | [] => .ok []
  | (n, o) :: fs => do
    let o' ← Obj.loads o
    .ok ((n, o') :: (← Obj.loadsFields fs))
end

/-- `pickle.loads(pickle.dumps(x))`. -/
def Obj.pickle (o : Obj) : Except CopyExc Obj := do (← o.dumps).loads

/-! ## The objects of requests and responses -/

/-- What `XacmlCoreBase.__init__` sets. Models: ndg/xacml/core/__init__.py:43-58. -/
def coreFields : List (String × Obj) :=
  ["_XacmlCoreBase__xmlns", "_XacmlCoreBase__reader", "_XacmlCoreBase__writer", "_XacmlCoreBase__elem"].map
    fun n => (n, .atom .none)

/-- `None` or a string. -/
def optStrObj : Option String → Obj
  | none => .atom .none
  | some s => .atom (.str s)

/-- Models: ndg/xacml/core/attributevalue.py:130-150. -/
def valueObj (v : AttrVal) : Obj :=
  .inst .value (coreFields ++ [("_Expression__dataType", .atom (.str v.dataType)),
    ("_AttributeValue__value", .atom (v.value.elim .none .native))])

/-- Models: ndg/xacml/core/attribute.py:49-54. -/
def attributeObj (a : Attribute) : Obj :=
  .inst .attribute (coreFields ++ [("_Attribute__attributeValues", .typed "AttributeValue" (a.values.map valueObj)),
    ("_Attribute__dataType", optStrObj a.dataType), ("_Attribute__attributeId", optStrObj a.attributeId),
    ("_Attribute__issuer", optStrObj a.issuer)])

/-- The field `attributes` of the four parts of a request. Models: ndg/xacml/core/context/__init__.py:71-74. -/
def attributesField (as : List Attribute) : String × Obj :=
  ("_RequestChildBase__attributes", .typed "Attribute" (as.map attributeObj))

/-- Models: ndg/xacml/core/context/subject.py:32-34. -/
def subjectObj (s : CtxSubject) : Obj :=
  .inst .subject (coreFields ++ [attributesField s.attributes, ("_Subject__subjectCategory", optStrObj s.category)])

/-- Models: ndg/xacml/core/context/resource.py:32-35. -/
def resourceObj (r : CtxResource) : Obj :=
  .inst .resource (coreFields ++ [attributesField r.attributes, ("_Resource__resourceContent", optStrObj r.content)])

/-- An action or environment, or `None`. -/
def partObj (c : Cls) : Option (List Attribute) → Obj
  | none => .atom .none
  | some as => .inst c (coreFields ++ [attributesField as])

/-- A request; `handler` and `selector` are the two engines. Models: ndg/xacml/core/context/request.py:59-70. -/
def requestObj (r : ReqData) (handler selector : Atom) : Obj :=
  .inst .request (coreFields ++ [
    ("_Request__subjects", .typed "Subject" (r.subjects.map subjectObj)),
    ("_Request__resources", .typed "Resource" (r.resources.map resourceObj)),
    ("_Request__action", partObj .action r.action),
    ("_Request__environment", partObj .environment r.environment),
    ("_Request__ctxHandler", .atom handler),
    ("_Request__attributeSelector", .atom selector)])

/-- Models: ndg/xacml/core/context/result.py:49-57. -/
def StatusCode.urn : StatusCode → String
  | .ok => "urn:oasis:names:tc:xacml:1.0:status:ok"
  | .missingAttribute => "urn:oasis:names:tc:xacml:1.0:status:missing-attribute"
  | .processingError => "urn:oasis:names:tc:xacml:1.0:status:processing-error"
  | .syntaxError => "urn:oasis:names:tc:xacml:1.0:status:syntax-error"

/-- Models: ndg/xacml/core/context/result.py:146-167. -/
def statusObj (s : StatusCode) : Obj :=
  .inst .status (coreFields ++ [
    ("_Status__statusCode", .inst .statusCode (coreFields ++ [("_StatusCode__value", .atom (.str s.urn)),
      ("_StatusCode__childStatusCode", .atom .none)])),
    ("_Status__statusMessage", .atom (.str "")), ("_Status__statusDetail", .atom (.str ""))])

/-- Models: ndg/xacml/core/context/result.py:268-278. -/
def Decision.name : Decision → String
  | .permit => "Permit"
  | .deny => "Deny"
  | .indeterminate => "Indeterminate"
  | .notApplicable => "NotApplicable"

/-- Models: ndg/xacml/core/context/result.py:312-314. -/
def decisionObj (d : Decision) : Obj := .inst .decision [("_Decision__value", .atom (.str d.name))]

/-- `Obligation.__init__` does not call that of its superclass, so the core fields are not set.
Models: ndg/xacml/core/obligation.py:167-171. -/
def obligationObj (o : Obligation) : Obj :=
  .inst .obligation [("_Obligation__attributeAssignments", .typed "AttributeAssignment" []),
    ("_Obligation__obligationId", optStrObj o.obligationId), ("_Obligation__fulfillOn", optStrObj o.fulfillOn)]

/-- A result; it has at most one obligation object. Models: ndg/xacml/core/context/result.py:513-518. -/
def resultObj (r : Result) : Obj :=
  .inst .result (coreFields ++ [("_Result__resourceId", optStrObj r.resourceId), ("_Result__decision", decisionObj r.decision),
    ("_Result__status", statusObj r.status),
    ("_Result__obligations", match r.obligations with | [] => .atom .none | o :: _ => obligationObj o)])

/-- Models: ndg/xacml/core/context/response.py:32-35. -/
def responseObj (r : Response) : Obj :=
  .inst .response (coreFields ++ [("_Response__results", .typed "Result" (r.results.map resultObj))])

end Xacml
