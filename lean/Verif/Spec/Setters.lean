import Verif.Model.Setters
import Verif.Spec.Combining

/-!
# Specifications for the setters
-/
namespace Xacml.Spec

/-- The rule combining algorithms a policy may name, as functions of the rules' effects and decisions. -/
def ruleAlgorithm (urn : String) : Option (List (Option Effect) → List Decision → Decision) :=
  if urn = "urn:oasis:names:tc:xacml:1.0:rule-combining-algorithm:deny-overrides" then some ruleDenyOverrides
  else if urn = "urn:oasis:names:tc:xacml:1.0:rule-combining-algorithm:permit-overrides" then
    some rulePermitOverrides
  else if urn = "urn:oasis:names:tc:xacml:1.0:rule-combining-algorithm:first-applicable" then
    some fun _ => firstApplicable
  else none

/-- The policy combining algorithms a policy set may name, as functions of the children's decisions. -/
def policyAlgorithm (urn : String) : Option (List Decision → Decision) :=
  if urn = "urn:oasis:names:tc:xacml:1.0:policy-combining-algorithm:deny-overrides" then some policyDenyOverrides
  else if urn = "urn:oasis:names:tc:xacml:1.0:policy-combining-algorithm:permit-overrides" then
    some policyPermitOverrides
  else if urn = "urn:oasis:names:tc:xacml:1.0:policy-combining-algorithm:first-applicable" then
    some firstApplicable
  else none

/-- The algorithm an assigned object names in a map of algorithms, if any. -/
def named (map : List (String × AlgEntry)) : StrArg → Option Alg
  | .str s =>
    match dictGet map s with
    | some (.cls a) => some a
    | _ => none
  | .other => none

/-- What the designator and selector of a match element should be after a history of assignments:
those of the last successful assignment to either. -/
inductive Assigned where
  | nothing
  | designator (d : Category × Designator)
  | selector (s : Selector)

/-- See `Assigned`. -/
def lastAssigned : List MatchEvent → Assigned
  | [] => .nothing
  | e :: es =>
    match lastAssigned es, e with
    | .nothing, .setDesignator (some d) => .designator d
    | .nothing, .setSelector (some s) => .selector s
    | r, _ => r

/-- The assignments of an object of the wrong type. -/
def wrongType : MatchEvent → Bool
  | .setValue none | .setDesignator none | .setSelector none | .setMatchId .other | .setLoad none | .setMap none => true
  | _ => false

/-- The value of a match element after a history of assignments: the last attribute value assigned. -/
def lastValue (es : List MatchEvent) : Option AttrVal :=
  (es.filterMap fun e => match e with | .setValue v => v | _ => none).getLast?

end Xacml.Spec
