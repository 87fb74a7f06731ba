import Verif.Model.Py

/-!
# The attributes of policies, requests and responses

Every attribute is a property with a getter and a setter; most setters check the type. Here values are
abstract: all that is known of a value is which classes it is an instance of, and whether it is one of
the status codes.
-/
namespace Xacml

variable {V : Type}

/-- The classes that setters test for. `action` and `environment` are those of requests, `effect` that
of rules. -/
inductive PyClass where
  | action
  | attributeDesignator
  | attributeSelector
  | attributeValue
  | condition
  | ctxHandlerInterface
  | decision
  | environment
  | expression
  | functionMap
  | obligation
  | pdpInterface
  | pipInterface
  | policyBase
  | policyCombiningAlgClassFactory
  | policyDefaults
  | response
  | ruleCombiningAlgClassFactory
  | effect
  | status
  | statusCode
  | target
  | typedList
  | xpathSelectorInterface
  | bool
  | str
  deriving DecidableEq

/-- The attributes with a setter, by class. `coreXmlns` and `coreElem` are those of all elements;
`expressionDataType` is that of all expressions. -/
inductive Attr where
  | coreXmlns
  | coreElem
  | applyLoadFunctionFromId
  | applyFunctionId
  | applyFunctionMap
  | ruleTarget
  | ruleCondition
  | ruleId
  | ruleEffect
  | ruleDescription
  | attributeAttributeValues
  | attributeDataType
  | attributeAttributeId
  | attributeIssuer
  | designatorAttributeId
  | designatorIssuer
  | designatorMustBePresent
  | selectorRequestContextPath
  | selectorMustBePresent
  | expressionDataType
  | policySetPolicyCombiningAlgFactory
  | policySetPolicySetId
  | policySetVersion
  | policySetPolicyCombiningAlgId
  | policySetTarget
  | policySetDescription
  | policySetPolicySetDefaults
  | policyRuleCombiningAlgFactory
  | policyPolicyId
  | policyVersion
  | policyRuleCombiningAlgId
  | policyTarget
  | policyDescription
  | policyPolicyDefaults
  | matchAttributeValue
  | matchAttributeDesignator
  | matchAttributeSelector
  | matchMatchId
  | matchLoadFunctionFromId
  | matchFunctionMap
  | obligationObligationId
  | obligationFulfillOn
  | policyDefaultsXpathVersion
  | conditionExpression
  | subjectSubjectCategory
  | resourceResourceContent
  | requestAction
  | requestEnvironment
  | requestCtxHandler
  | requestAttributeSelector
  | statusCodeValue
  | statusStatusCode
  | statusStatusMessage
  | statusStatusDetail
  | resultResourceId
  | resultDecision
  | resultStatus
  | resultObligations
  | pdpPolicy
  | ctxHandlerPip
  | ctxHandlerPdp
  | contextErrorResponse
  deriving DecidableEq

/-- The type test of the setter; `none`: there is none. Models, in this order:
ndg/xacml/core/__init__.py:64-73, 95-103, ndg/xacml/core/apply.py:70-82, 91-105, 153-166,
ndg/xacml/core/rule.py:237-247, 258-270, 280-291, 303-314, 327-337, ndg/xacml/core/attribute.py:64-77,
86-96, 109-120, 130-141, ndg/xacml/core/attributedesignator.py:76-87, 97-108, 118-129,
ndg/xacml/core/attributeselector.py:66-77, 87-98, ndg/xacml/core/expression.py:40-45,
ndg/xacml/core/policyset.py:167-178, 200-209, 221-230, 240-250, 330-338, 348-356, 367-376,
ndg/xacml/core/policy.py:149-160, 209-218, 230-239, 249-259, 337-345, 355-363, 374-383,
ndg/xacml/core/match.py:96-108, 118-135, 145-160, 169-183, 200-212, 256-270,
ndg/xacml/core/obligation.py:189-201, 212-223, ndg/xacml/core/policydefaults.py:42-51,
ndg/xacml/core/condition.py:48-60, ndg/xacml/core/context/subject.py:44-56,
ndg/xacml/core/context/resource.py:43-48, ndg/xacml/core/context/request.py:94-104, 114-124, 136-148,
159-171, ndg/xacml/core/context/result.py:98-110, 176-187, 202-213, 228-235, 563-575, 586-597, 608-620,
631-644, ndg/xacml/core/context/pdp.py:80-90, ndg/xacml/core/context/handler.py:34-40, 47-53,
ndg/xacml/core/context/exceptions.py:48-53. -/
def Attr.test : Attr → Option PyClass
  | .coreXmlns => some .str
  | .coreElem => none
  | .applyLoadFunctionFromId => some .bool
  | .applyFunctionId => some .str
  | .applyFunctionMap => some .functionMap
  | .ruleTarget => some .target
  | .ruleCondition => some .condition
  | .ruleId => some .str
  | .ruleEffect => some .effect
  | .ruleDescription => some .str
  | .attributeAttributeValues => some .typedList
  | .attributeDataType => some .str
  | .attributeAttributeId => some .str
  | .attributeIssuer => some .str
  | .designatorAttributeId => some .str
  | .designatorIssuer => some .str
  | .designatorMustBePresent => some .bool
  | .selectorRequestContextPath => some .str
  | .selectorMustBePresent => some .bool
  | .expressionDataType => some .str
  | .policySetPolicyCombiningAlgFactory => some .policyCombiningAlgClassFactory
  | .policySetPolicySetId => some .str
  | .policySetVersion => some .str
  | .policySetPolicyCombiningAlgId => some .str
  | .policySetTarget => some .target
  | .policySetDescription => some .str
  | .policySetPolicySetDefaults => some .policyDefaults
  | .policyRuleCombiningAlgFactory => some .ruleCombiningAlgClassFactory
  | .policyPolicyId => some .str
  | .policyVersion => some .str
  | .policyRuleCombiningAlgId => some .str
  | .policyTarget => some .target
  | .policyDescription => some .str
  | .policyPolicyDefaults => some .policyDefaults
  | .matchAttributeValue => some .attributeValue
  | .matchAttributeDesignator => some .attributeDesignator
  | .matchAttributeSelector => some .attributeSelector
  | .matchMatchId => some .str
  | .matchLoadFunctionFromId => some .bool
  | .matchFunctionMap => some .functionMap
  | .obligationObligationId => some .str
  | .obligationFulfillOn => some .str
  | .policyDefaultsXpathVersion => some .str
  | .conditionExpression => some .expression
  | .subjectSubjectCategory => some .str
  | .resourceResourceContent => none
  | .requestAction => some .action
  | .requestEnvironment => some .environment
  | .requestCtxHandler => some .ctxHandlerInterface
  | .requestAttributeSelector => some .xpathSelectorInterface
  | .statusCodeValue => some .str
  | .statusStatusCode => some .statusCode
  | .statusStatusMessage => some .str
  | .statusStatusDetail => none
  | .resultResourceId => some .str
  | .resultDecision => some .decision
  | .resultStatus => some .status
  | .resultObligations => some .obligation
  | .pdpPolicy => some .policyBase
  | .ctxHandlerPip => some .pipInterface
  | .ctxHandlerPdp => some .pdpInterface
  | .contextErrorResponse => some .response

/-- A value as the setters see it. -/
structure AttrValueWorld (V : Type) where
  isA : V → PyClass → Bool
  /-- `value in StatusCode.CODES`. -/
  isStatusCode : V → Bool

/-- What a slot of an object holds: nothing yet (reading is an AttributeError), None, the value given by
the class (a default, or what `__init__` created), or a value that was assigned. -/
inductive Slot (V : Type) where
  | unset
  | none_
  | initial
  | val (v : V)
  deriving DecidableEq

/-- The slots after `__init__`, of classes whose `__init__` runs all of its base classes'.
`Rule.__init__` does not mention the description.
Models: ndg/xacml/core/__init__.py:42-56, ndg/xacml/core/rule.py:220-227,
ndg/xacml/core/apply.py:50-58, ndg/xacml/core/match.py:72-87, ndg/xacml/core/attribute.py:49-54,
ndg/xacml/core/attributedesignator.py:56-66, ndg/xacml/core/attributeselector.py:47-56,
ndg/xacml/core/policy.py:108-140, ndg/xacml/core/policyset.py:106-131,
ndg/xacml/core/context/exceptions.py:23-37 and the `__init__` methods of the
other classes, which set every attribute to None. -/
def Attr.init : Attr → Slot V
  | .ruleDescription => .unset
  | .applyLoadFunctionFromId | .applyFunctionMap | .matchLoadFunctionFromId | .matchFunctionMap
  | .attributeAttributeValues | .designatorMustBePresent
  | .policyRuleCombiningAlgFactory | .policySetPolicyCombiningAlgFactory | .contextErrorResponse => .initial
  | _ => .none_

/-- Whether `__init__` runs `XacmlCoreBase.__init__`, by class name.
Models: ndg/xacml/core/target.py:63-68, ndg/xacml/core/match.py:72-87, ndg/xacml/core/obligation.py:167-171,
whose `__init__` do not. -/
def initialisesCore (cls : String) : Bool :=
  !(["Target", "SubjectMatch", "ResourceMatch", "ActionMatch", "EnvironmentMatch", "Obligation"].contains cls)

/-- The attribute `elem` of a new object of the class. Models: ndg/xacml/core/__init__.py:49. -/
def elemInit (cls : String) : Slot V := if initialisesCore cls then .none_ else .unset

/-- Reading an attribute (a property over a slot). -/
def readSlot : Slot V → Except Exc (Slot V)
  | .unset => .error .attributeError
  | s => .ok s

/-- The attributes of one object. -/
abbrev Slots (V : Type) := Attr → Slot V

/-- One slot is replaced. -/
def Slots.put (s : Slots V) (a : Attr) (x : Slot V) : Slots V := fun b => if b = a then x else s b

/-- The attribute that a setter resets: a match has a designator or a selector, not both.
Models: ndg/xacml/core/match.py:134-135, 159-160. -/
def Attr.rival : Attr → Option Attr
  | .matchAttributeDesignator => some .matchAttributeSelector
  | .matchAttributeSelector => some .matchAttributeDesignator
  | _ => none

/-- Setters that look the value up after storing it, which may raise (see C31 and C60).
Models: ndg/xacml/core/apply.py:101-105, ndg/xacml/core/match.py:179-183, ndg/xacml/core/policy.py:258-262,
ndg/xacml/core/policyset.py:249-253. -/
def Attr.looksUp : Attr → Bool
  | .applyFunctionId | .matchMatchId | .policyRuleCombiningAlgId | .policySetPolicyCombiningAlgId => true
  | _ => false

/-- `obj.a = v`; `lookup` is the exception of the lookup, if there is one. Models: the setters listed
with `Attr.test`, and ndg/xacml/core/context/result.py:106-108. -/
def setAttr (w : AttrValueWorld V) (s : Slots V) (a : Attr) (v : V) (lookup : Option Exc) : Except Exc Unit × Slots V :=
  match a.test with
  | some c =>
    if !w.isA v c then (.error .typeError, s)
    else if a = .statusCodeValue ∧ w.isStatusCode v = false then (.error .attributeError, s)
    else store
  | none => store
where
  store :=
    let s' := s.put a (.val v)
    let s'' := match a.rival with
      | some b => s'.put b .none_
      | none => s'
    match lookup with
    | some e => if a.looksUp then (.error e, s'') else (.ok (), s'')
    | none => (.ok (), s'')

/-- One assignment in a program with several objects. -/
structure Assignment (V : Type) where
  obj : Nat
  attr : Attr
  value : V
  lookup : Option Exc

/-- A history of assignments, exceptions caught. -/
def assignAll (w : AttrValueWorld V) (s : Nat → Slots V) : List (Assignment V) → Nat → Slots V
  | [], o => s o
  | x :: xs, o => assignAll w (fun o' => if o' = x.obj then (setAttr w (s o') x.attr x.value x.lookup).2 else s o') xs o

/-- New objects. -/
def newObjects : Nat → Slots V := fun _ a => a.init

end Xacml
