import Verif.Spec.Rejecting
import Verif.Spec.Context

/-!
# Why reading a request or response document fails with something other than an XMLParseError
-/
namespace Xacml.Spec

/-- `RequestFlaw lib classMap n e`: an Attribute element of a request that makes reading raise `e`. -/
inductive RequestFlaw (lib : Etree) (classMap : List (String × AVClass)) (n : XNode) : Exc → Prop
  /-- No AttributeId or no DataType: TypeError. -/
  | nameless : n.name = "Attribute" → (n.attr "AttributeId" = none ∨ n.attr "DataType" = none) →
      RequestFlaw lib classMap n .typeError
  /-- Elements of the XML library have no `getchildren`: AttributeError, for any Attribute. -/
  | library : n.name = "Attribute" → lib.getchildren = false → RequestFlaw lib classMap n .attributeError
  /-- A value of an unknown DataType: TypeError. -/
  | unknown {dt c} : n.name = "Attribute" → n.attr "DataType" = some dt → classMap.lookup dt = none →
      c ∈ elems n → c.name = "AttributeValue" → RequestFlaw lib classMap n .typeError
  /-- A text for a DataType whose values are not strings: TypeError. -/
  | notString {dt k c t} : n.name = "Attribute" → n.attr "DataType" = some dt → classMap.lookup dt = some k →
      k.native ≠ .str → c ∈ elems n → c.name = "AttributeValue" → c.text = some t →
      RequestFlaw lib classMap n .typeError

/-- `ResponseFlaw n e`: a Decision element that makes reading raise `e`. -/
inductive ResponseFlaw (n : XNode) : Exc → Prop
  /-- No text: TypeError. -/
  | textless : n.name = "Decision" → n.text = none → ResponseFlaw n .typeError
  /-- Not one of the four decisions: AttributeError. -/
  | word {s} : n.name = "Decision" → n.text = some s → (∀ d, s ≠ decisionWord d) → ResponseFlaw n .attributeError

end Xacml.Spec
