import Verif.Model.Attributes

/-!
# What the documentation says about attributes

The types in the `@type` lines of the setters' documentation.
-/
namespace Xacml.Spec

variable {V : Type}

/-- Attributes documented as strings. -/
def stringAttrs : List Attr :=
  [.coreXmlns, .applyFunctionId, .ruleId, .ruleDescription, .attributeDataType, .attributeAttributeId, .attributeIssuer,
   .designatorAttributeId, .designatorIssuer, .selectorRequestContextPath, .expressionDataType, .policySetPolicySetId,
   .policySetVersion, .policySetPolicyCombiningAlgId, .policySetDescription, .policyPolicyId, .policyVersion,
   .policyRuleCombiningAlgId, .policyDescription, .matchMatchId, .obligationObligationId, .obligationFulfillOn,
   .policyDefaultsXpathVersion, .subjectSubjectCategory, .statusCodeValue, .statusStatusMessage, .resultResourceId]

/-- Attributes documented as booleans. -/
def boolAttrs : List Attr := [.applyLoadFunctionFromId, .matchLoadFunctionFromId, .designatorMustBePresent, .selectorMustBePresent]

/-- Attributes documented to hold objects of other classes. -/
def objectAttrs : List (Attr × PyClass) :=
  [(.ruleTarget, .target), (.policyTarget, .target), (.policySetTarget, .target), (.ruleCondition, .condition),
   (.ruleEffect, .effect), (.conditionExpression, .expression), (.applyFunctionMap, .functionMap),
   (.matchFunctionMap, .functionMap), (.matchAttributeValue, .attributeValue),
   (.matchAttributeDesignator, .attributeDesignator), (.matchAttributeSelector, .attributeSelector),
   (.attributeAttributeValues, .typedList), (.policyPolicyDefaults, .policyDefaults),
   (.policySetPolicySetDefaults, .policyDefaults),
   (.policyRuleCombiningAlgFactory, .ruleCombiningAlgClassFactory),
   (.policySetPolicyCombiningAlgFactory, .policyCombiningAlgClassFactory),
   (.requestAction, .action), (.requestEnvironment, .environment), (.requestCtxHandler, .ctxHandlerInterface),
   (.requestAttributeSelector, .xpathSelectorInterface), (.statusStatusCode, .statusCode), (.resultDecision, .decision),
   (.resultStatus, .status), (.resultObligations, .obligation), (.pdpPolicy, .policyBase),
   (.ctxHandlerPip, .pipInterface), (.ctxHandlerPdp, .pdpInterface), (.contextErrorResponse, .response)]

/-- Attributes documented to hold anything. -/
def anyAttrs : List Attr := [.coreElem, .resourceResourceContent, .statusStatusDetail]

/-- A value suits an attribute according to the documentation. -/
inductive Suits (w : AttrValueWorld V) : Attr → V → Prop where
  | string {a : Attr} {v : V} : a ∈ stringAttrs → a ≠ .statusCodeValue → w.isA v .str = true → Suits w a v
  | statusCode {v : V} : w.isA v .str = true → w.isStatusCode v = true → Suits w .statusCodeValue v
  | bool {a : Attr} {v : V} : a ∈ boolAttrs → w.isA v .bool = true → Suits w a v
  | object {a : Attr} {c : PyClass} {v : V} : (a, c) ∈ objectAttrs → w.isA v c = true → Suits w a v
  | any {a : Attr} {v : V} : a ∈ anyAttrs → Suits w a v

/-- The slot of attribute `a` of object `o` after a history: `SlotHolds xs x` says that the slot holds `x`
after the assignments `xs`, the latest first. A suitable value replaces what was there; assigning a
designator to a match removes its selector and vice versa; nothing else has an influence. -/
inductive SlotHolds (w : AttrValueWorld V) (start : Slot V) (o : Nat) (a : Attr) : List (Assignment V) → Slot V → Prop where
  | start : SlotHolds w start o a [] start
  | set {x : Assignment V} {xs : List (Assignment V)} : x.obj = o → x.attr = a → Suits w a x.value →
      SlotHolds w start o a (x :: xs) (.val x.value)
  | reset {x : Assignment V} {xs : List (Assignment V)} : x.obj = o → Suits w x.attr x.value →
      ((x.attr = .matchAttributeDesignator ∧ a = .matchAttributeSelector) ∨
        (x.attr = .matchAttributeSelector ∧ a = .matchAttributeDesignator)) →
      SlotHolds w start o a (x :: xs) .none_
  | keep {x : Assignment V} {xs : List (Assignment V)} {y : Slot V} :
      (x.obj ≠ o ∨ ¬ Suits w x.attr x.value ∨
        (x.attr ≠ a ∧ ¬ ((x.attr = .matchAttributeDesignator ∧ a = .matchAttributeSelector) ∨
        (x.attr = .matchAttributeSelector ∧ a = .matchAttributeDesignator)))) →
      SlotHolds w start o a xs y → SlotHolds w start o a (x :: xs) y

end Xacml.Spec
