import Verif.Model.Policy
import Verif.Model.FunctionMap

/-!
# Property setters of policies and of match and apply elements
-/
namespace Xacml

/-- The argument of a setter that wants a string: a string or any other object. -/
inductive StrArg where
  | str (s : String)
  | other

/-! ## Combining algorithm identifiers -/

/-- A value of a combining algorithm factory's map. -/
inductive AlgEntry where
  | notImplemented
  | cls (a : Alg)

/-- `ALGORITHMS` of the rule combining module.
Models: ndg/xacml/core/rule_combining_alg.py:21-33. -/
def ruleAlgorithms : List String := [
  "urn:oasis:names:tc:xacml:1.0:rule-combining-algorithm:deny-overrides",
  "urn:oasis:names:tc:xacml:1.0:policy-combining-algorithm:deny-overrides",
  "urn:oasis:names:tc:xacml:1.0:rule-combining-algorithm:permit-overrides",
  "urn:oasis:names:tc:xacml:1.0:policy-combining-algorithm:permit-overrides",
  "urn:oasis:names:tc:xacml:1.0:rule-combining-algorithm:first-applicable",
  "urn:oasis:names:tc:xacml:1.0:policy-combining-algorithm:first-applicable",
  "urn:oasis:names:tc:xacml:1.0:policy-combining-algorithm:only-one-applicable",
  "urn:oasis:names:tc:xacml:1.1:rule-combining-algorithm:ordered-deny-overrides",
  "urn:oasis:names:tc:xacml:1.1:policy-combining-algorithm:ordered-deny-overrides",
  "urn:oasis:names:tc:xacml:1.1:rule-combining-algorithm:ordered-permit-overrides",
  "urn:oasis:names:tc:xacml:1.1:policy-combining-algorithm:ordered-permit-overrides"]

/-- `ALGORITHMS` of the policy combining module.
Models: ndg/xacml/core/policy_combining_alg.py:21-28. -/
def policyAlgorithms : List String := [
  "urn:oasis:names:tc:xacml:1.0:policy-combining-algorithm:deny-overrides",
  "urn:oasis:names:tc:xacml:1.0:policy-combining-algorithm:permit-overrides",
  "urn:oasis:names:tc:xacml:1.0:policy-combining-algorithm:first-applicable",
  "urn:oasis:names:tc:xacml:1.0:policy-combining-algorithm:only-one-applicable",
  "urn:oasis:names:tc:xacml:1.1:policy-combining-algorithm:ordered-deny-overrides",
  "urn:oasis:names:tc:xacml:1.1:policy-combining-algorithm:ordered-permit-overrides"]

/-- `{}.fromkeys(names, NotImplemented)`. -/
def fromKeys (names : List String) : List (String × AlgEntry) := names.map fun n => (n, .notImplemented)

/-- `DEFAULT_MAP` of the rule combining algorithm factory.
Models: ndg/xacml/core/rule_combining_alg.py:216-226. -/
def ruleAlgMap : List (String × AlgEntry) :=
  dictSet (dictSet (dictSet (fromKeys ruleAlgorithms)
    "urn:oasis:names:tc:xacml:1.0:rule-combining-algorithm:deny-overrides" (.cls .denyOverrides))
    "urn:oasis:names:tc:xacml:1.0:rule-combining-algorithm:permit-overrides" (.cls .permitOverrides))
    "urn:oasis:names:tc:xacml:1.0:rule-combining-algorithm:first-applicable" (.cls .firstApplicable)

/-- `DEFAULT_MAP` of the policy combining algorithm factory.
Models: ndg/xacml/core/policy_combining_alg.py:188-198. -/
def policyAlgMap : List (String × AlgEntry) :=
  dictSet (dictSet (dictSet (fromKeys policyAlgorithms)
    "urn:oasis:names:tc:xacml:1.0:policy-combining-algorithm:deny-overrides" (.cls .denyOverrides))
    "urn:oasis:names:tc:xacml:1.0:policy-combining-algorithm:permit-overrides" (.cls .permitOverrides))
    "urn:oasis:names:tc:xacml:1.0:policy-combining-algorithm:first-applicable" (.cls .firstApplicable)

/-- The setter of ruleCombiningAlgId / policyCombiningAlgId with the factory's map. The identifier is
stored first; then the class is looked up, and anything but a class raises TypeError. The branches for
a class whose instance is NotImplemented or None are unreachable.
Simplification: the map's classes are the three of the package and are instantiated without failing.
Models: ndg/xacml/core/policy.py:249-289, ndg/xacml/core/policyset.py:240-282,
ndg/xacml/core/rule_combining_alg.py:237-248, ndg/xacml/core/policy_combining_alg.py:209-220. -/
def Header.setAlgId (map : List (String × AlgEntry)) (h : Header) : StrArg → Except Exc Unit × Header
  | .other => (.error .typeError, h)
  | .str s =>
    let h1 := { h with algId := some s }
    match dictGet map s with
    | some (.cls a) => (.ok (), { h1 with alg := some a })
    | some .notImplemented => (.error .typeError, h1)
    | none => (.error .typeError, h1)

/-- A history of assignments of the identifier. -/
def Header.setAlgIds (map : List (String × AlgEntry)) (h : Header) (as : List StrArg) : Header :=
  as.foldl (fun h a => (h.setAlgId map a).2) h

/-! ## Match and Apply elements -/

/-- The part of a match or apply element that holds its function: matchId/functionId, function,
functionMap and loadFunctionFromId. `func` is the class the function object was created from.
Models: ndg/xacml/core/match.py:79-86, ndg/xacml/core/apply.py:28-58. -/
structure FnHolder where
  ident : Option String := none
  func : Option FnClass := none
  map : FunctionMap
  load : Bool := true

/-- `setFunctionFromMap(functionMap)`; the result includes the map after the lookup.
Models: ndg/xacml/core/match.py:214-244, ndg/xacml/core/apply.py:110-142.
Simplification: creating the function object does not fail. -/
def FnHolder.setFunctionFromMap (imp : Importer) (h : FnHolder) (m : FunctionMap) :
    Except Exc Unit × FnHolder × FunctionMap :=
  match h.ident with
  | none => (.error .attributeError, h, m)
  | some i =>
    match m.get imp i with
    | (.error e, m') => (.error e, h, m')
    | (.ok .notImplemented, m') => (.error .unsupportedStdFunctionError, h, m')
    | (.ok (.cls c), m') => (.ok (), { h with func := some c }, m')

/-- The setter of matchId/functionId: the identifier is stored before the lookup.
Models: ndg/xacml/core/match.py:169-183, ndg/xacml/core/apply.py:91-105. -/
def FnHolder.setIdent (imp : Importer) (h : FnHolder) : StrArg → Except Exc Unit × FnHolder
  | .other => (.error .typeError, h)
  | .str s =>
    let h1 := { h with ident := some s }
    if h1.load then
      match h1.setFunctionFromMap imp h1.map with
      | (r, h2, m') => (r, { h2 with map := m' })
    else (.ok (), h1)

/-- The setter of loadFunctionFromId; `none` is a value that is not a bool.
Models: ndg/xacml/core/match.py:200-212, ndg/xacml/core/apply.py:70-82. -/
def FnHolder.setLoad (h : FnHolder) : Option Bool → Except Exc Unit × FnHolder
  | none => (.error .typeError, h)
  | some b => (.ok (), { h with load := b })

/-- The setter of functionMap; `none` is a value that is not a FunctionMap.
Models: ndg/xacml/core/match.py:256-270, ndg/xacml/core/apply.py:153-166. -/
def FnHolder.setMap (h : FnHolder) : Option FunctionMap → Except Exc Unit × FnHolder
  | none => (.error .typeError, h)
  | some m => (.ok (), { h with map := m })

/-- All state of a match element. Models: ndg/xacml/core/match.py:62-86. -/
structure MatchState where
  value : Option AttrVal := none
  designator : Option (Category × Designator) := none
  selector : Option Selector := none
  fn : FnHolder

/-- Assignments to a match element; `none` stands for an object of another type. -/
inductive MatchEvent where
  | setValue (v : Option AttrVal)
  | setDesignator (d : Option (Category × Designator))
  | setSelector (s : Option Selector)
  | setMatchId (a : StrArg)
  | setLoad (b : Option Bool)
  | setMap (m : Option FunctionMap)
  | setFunctionFromMap (m : FunctionMap)

/-- The setters of a match element.
Models: ndg/xacml/core/match.py:96-108, 118-135, 145-160, 169-183, 200-270. -/
def MatchState.apply (imp : Importer) (m : MatchState) : MatchEvent → Except Exc Unit × MatchState
  | .setValue none => (.error .typeError, m)
  | .setValue (some v) => (.ok (), { m with value := some v })
  | .setDesignator none => (.error .typeError, m)
  | .setDesignator (some d) => (.ok (), { m with designator := some d, selector := none })
  | .setSelector none => (.error .typeError, m)
  | .setSelector (some s) => (.ok (), { m with selector := some s, designator := none })
  | .setMatchId a => let r := m.fn.setIdent imp a; (r.1, { m with fn := r.2 })
  | .setLoad b => let r := m.fn.setLoad b; (r.1, { m with fn := r.2 })
  | .setMap fm => let r := m.fn.setMap fm; (r.1, { m with fn := r.2 })
  | .setFunctionFromMap fm => let r := m.fn.setFunctionFromMap imp fm; (r.1, { m with fn := r.2.1 })

/-- A history of assignments (exceptions caught by the caller). -/
def MatchState.run (imp : Importer) (m : MatchState) (es : List MatchEvent) : MatchState :=
  es.foldl (fun m e => (m.apply imp e).2) m

/-- The match element as evaluation sees it. -/
def MatchState.toMatch (customs : Nat → List PyVal → Except Exc PyVal) (m : MatchState) : Match :=
  { matchId := m.fn.ident, value := m.value, designator := m.designator, selector := m.selector,
    func := m.fn.func.bind (FnClass.toFunc customs) }

end Xacml
