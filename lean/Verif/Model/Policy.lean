import Verif.Model.Eval

/-!
# Match, Target, Rule, combining algorithms, Policy, PolicySet, PDP

Decisions are values here: the sharing of the four mutable `Decision` constants is modelled
separately in `Verif.Model.DecisionHeap`.
-/
namespace Xacml

/-- Decision values. Models: ndg/xacml/core/context/result.py:242-361. -/
inductive Decision where
  | permit | deny | notApplicable | indeterminate
  deriving DecidableEq, Repr

/-- Rule effects. Models: ndg/xacml/core/rule.py:22-146. -/
inductive Effect where
  | permit | deny
  deriving DecidableEq, Repr

/-- `Decision(decision=effect.value)`: both use the strings 'Permit' and 'Deny'.
Models: ndg/xacml/core/rule.py:389. -/
def Effect.toDecision : Effect → Decision
  | .permit => .permit
  | .deny => .deny

/-! ## Match elements -/

/-- State of a SubjectMatch/ResourceMatch/ActionMatch/EnvironmentMatch relevant to evaluation.
Models: ndg/xacml/core/match.py:62-86. -/
structure Match where
  matchId : Option String := none
  value : Option AttrVal
  designator : Option (Category × Designator)
  selector : Option Selector
  func : Option Func

/-- The argument passed for an unset attributeValue is `None`. -/
def optAv : Option AttrVal → PyVal
  | some v => .av v
  | none => .none

/-- `x == True` as executed by the debug branch: comparing an attribute value with `True`
raises TypeError (attributevalue.py:154-161). Models: ndg/xacml/core/match.py:327-328. -/
def debugCheck (debug : Bool) (x : PyVal) : Except Exc Unit :=
  if debug then
    match x with
    | .av _ => .error .typeError
    | _ => .ok ()
  else .ok ()

/-- One iteration of the loop of `MatchBase.evaluate`; calling a `None` function raises
AttributeError. Models: ndg/xacml/core/match.py:322-341. -/
def matchOne (env : Env) (m : Match) (v : AttrVal) : EvalM PyVal := do
  let x ← match m.func with
    | some f => f.evaluate env [optAv m.value, .av v]
    | none => EvalM.throw .attributeError
  EvalM.ofExcept (debugCheck env.debug x)
  pure x

/-- The loop of `MatchBase.evaluate`: every value is tested.
Models: ndg/xacml/core/match.py:318-341. -/
def matchLoop (env : Env) (m : Match) : List AttrVal → EvalM (List PyVal)
  | [] => pure []
  | v :: vs => do
    let x ← matchOne env m v
    let xs ← matchLoop env m vs
    pure (x :: xs)

/-- The values designated: designator first, else selector, else XacmlContextError.
Models: ndg/xacml/core/match.py:292-307. -/
def Match.requestValues (env : Env) (m : Match) (ctx : Ctx) : EvalM PyVal :=
  match m.designator with
  | some (cat, d) => designatorEval env cat d ctx
  | none =>
    match m.selector with
    | some s => EvalM.ofExcept (selectorEval env s ctx)
    | none => EvalM.throw .xacmlContextError

/-- `MatchBase.evaluate(context)`. Designators and selectors always return bags; the
other case is unreachable and mapped to TypeError (`len` of a non-list).
Models: ndg/xacml/core/match.py:280-347. -/
def Match.evaluate (env : Env) (m : Match) (ctx : Ctx) : EvalM Bool := do
  let vals ← m.requestValues env ctx
  match vals with
  | .bag b => do
    let xs ← matchLoop env m b.items
    pure (xs.any PyVal.truthy)
  | _ => EvalM.throw .typeError

/-! ## Targets -/

/-- A target Subject/Resource/Action/Environment: its list of match elements.
Models: ndg/xacml/core/__init__.py:141-170. -/
structure TargetChild where
  matches_ : List Match

/-- Target. Models: ndg/xacml/core/target.py:28-100. -/
structure Target where
  subjects : List TargetChild
  resources : List TargetChild
  actions : List TargetChild
  environments : List TargetChild

/-- Loop of `_matchChild`: every match element is evaluated.
Models: ndg/xacml/core/target.py:194-195. -/
def evalMatches (env : Env) (ctx : Ctx) : List Match → EvalM (List Bool)
  | [] => pure []
  | m :: ms => do
    let b ← m.evaluate env ctx
    let bs ← evalMatches env ctx ms
    pure (b :: bs)

/-- `Target._matchChild`. The `None` branch (line 180) cannot be reached because target
children are held in a TypedList. Models: ndg/xacml/core/target.py:163-198. -/
def matchChild (env : Env) (ctx : Ctx) (c : TargetChild) : EvalM Bool := do
  let bs ← evalMatches env ctx c.matches_
  pure (bs.all id)

/-- The loop over the entries of one section: all entries are evaluated, the status becomes
True as soon as one matches and stays so. Models: ndg/xacml/core/target.py:151-156. -/
def sectionLoop (env : Env) (ctx : Ctx) (status : Bool) : List TargetChild → EvalM Bool
  | [] => pure status
  | c :: cs => do
    let b ← matchChild env ctx c
    sectionLoop env ctx (if b then true else status) cs

/-- One section: an empty one matches. Models: ndg/xacml/core/target.py:135-156. -/
def matchSection (env : Env) (ctx : Ctx) (cs : List TargetChild) : EvalM Bool :=
  if cs.length = 0 then pure true else sectionLoop env ctx false cs

/-- `Target.match(request)`. Models: ndg/xacml/core/target.py:102-161. -/
def Target.match_ (env : Env) (t : Target) (ctx : Ctx) : EvalM Bool := do
  let s ← matchSection env ctx t.subjects
  let r ← matchSection env ctx t.resources
  let a ← matchSection env ctx t.actions
  let e ← matchSection env ctx t.environments
  pure (s && r && a && e)

/-- The common prologue of `Rule.evaluate` and `PolicyBase.evaluate`: no target matches.
Models: ndg/xacml/core/rule.py:359-366, ndg/xacml/core/policybase.py:143-151. -/
def targetMatch (env : Env) (t : Option Target) (ctx : Ctx) : EvalM Bool :=
  match t with
  | some t => t.match_ env ctx
  | none => pure true

/-! ## Rules -/

/-- Condition holding an optional expression. Models: ndg/xacml/core/condition.py:16-71. -/
structure Condition where
  expression : Option Expr

/-- `Condition.evaluate`: an unset expression raises AttributeError.
Models: ndg/xacml/core/condition.py:62-71. -/
def Condition.evaluate (env : Env) (c : Condition) (ctx : Ctx) : EvalM PyVal :=
  match c.expression with
  | some e => e.evaluate env ctx
  | none => EvalM.throw .attributeError

/-- Rule. Models: ndg/xacml/core/rule.py:183-340. -/
structure Rule where
  id : Option String := none
  description : Option String := none
  effect : Option Effect
  target : Option Target
  condition : Option Condition

/-- `except Exception: return INDETERMINATE`.
Models: ndg/xacml/core/rule.py:396-401, ndg/xacml/core/policybase.py:164-174. -/
def catchAll (m : EvalM Decision) : EvalM Decision := fun w =>
  match m w with
  | (.ok d, w') => (.ok d, w')
  | (.error _, w') => (.ok .indeterminate, w')

/-- The body of the `try` block of `Rule.evaluate`; an unset effect raises AttributeError.
Models: ndg/xacml/core/rule.py:352-394. -/
def Rule.body (env : Env) (r : Rule) (ctx : Ctx) : EvalM Decision := do
  let tm ← targetMatch env r.target ctx
  if !tm then pure .notApplicable
  else do
    let status ← match r.condition with
      | some c => c.evaluate env ctx
      | none => pure (.native (.bool true))
    if status.truthy then
      match r.effect with
      | some e => pure e.toDecision
      | none => EvalM.throw .attributeError
    else pure .notApplicable

/-- `Rule.evaluate(context)`. Models: ndg/xacml/core/rule.py:342-401. -/
def Rule.evaluate (env : Env) (r : Rule) (ctx : Ctx) : EvalM Decision := catchAll (r.body env ctx)

/-! ## Combining algorithms -/

/-- The implemented combining algorithms (same three for rules and for policies).
Models: ndg/xacml/core/rule_combining_alg.py:56-208, ndg/xacml/core/policy_combining_alg.py:51-180. -/
inductive Alg where
  | denyOverrides | permitOverrides | firstApplicable
  deriving DecidableEq, Repr

/-- A rule as a combining algorithm sees it: its effect and its `evaluate`. -/
structure RuleChild where
  effect : Option Effect
  run : EvalM Decision

/-- Loop state of the rule overrides algorithms. -/
structure Flags where
  error : Bool := false
  potential : Bool := false
  other : Bool := false

/-- Loop of `DenyOverridesRuleCombiningAlg.evaluate`; `rule.effect.value` raises
AttributeError when the effect is unset. Models: ndg/xacml/core/rule_combining_alg.py:72-105. -/
def denyOverridesRules (f : Flags) : List RuleChild → EvalM Decision
  | [] =>
    if f.potential then pure .indeterminate
    else if f.other then pure .permit
    else if f.error then pure .indeterminate
    else pure .notApplicable
  | c :: cs => do
    let d ← c.run
    match d with
    | .deny => pure .deny
    | .permit => denyOverridesRules { f with other := true } cs
    | .notApplicable => denyOverridesRules f cs
    | .indeterminate =>
      match c.effect with
      | none => EvalM.throw .attributeError
      | some .deny => denyOverridesRules { f with error := true, potential := true } cs
      | some .permit => denyOverridesRules { f with error := true } cs

/-- Loop of `PermitOverridesRuleCombiningAlg.evaluate`.
Models: ndg/xacml/core/rule_combining_alg.py:124-167. -/
def permitOverridesRules (f : Flags) : List RuleChild → EvalM Decision
  | [] =>
    if f.potential then pure .indeterminate
    else if f.other then pure .deny
    else if f.error then pure .indeterminate
    else pure .notApplicable
  | c :: cs => do
    let d ← c.run
    match d with
    | .deny => permitOverridesRules { f with other := true } cs
    | .permit => pure .permit
    | .notApplicable => permitOverridesRules f cs
    | .indeterminate =>
      match c.effect with
      | none => EvalM.throw .attributeError
      | some .permit => permitOverridesRules { f with error := true, potential := true } cs
      | some .deny => permitOverridesRules { f with error := true } cs

/-- Loop of the two first-applicable algorithms (identical code up to logging).
Models: ndg/xacml/core/rule_combining_alg.py:186-208, ndg/xacml/core/policy_combining_alg.py:157-180. -/
def firstApplicable : List (EvalM Decision) → EvalM Decision
  | [] => pure .notApplicable
  | c :: cs => do
    let d ← c
    match d with
    | .deny => pure .deny
    | .permit => pure .permit
    | .notApplicable => firstApplicable cs
    | .indeterminate => pure .indeterminate

/-- Loop of `DenyOverridesPolicyCombiningAlg.evaluate`.
Models: ndg/xacml/core/policy_combining_alg.py:67-87. -/
def denyOverridesPolicies (atLeastOnePermit : Bool) : List (EvalM Decision) → EvalM Decision
  | [] => if atLeastOnePermit then pure .permit else pure .notApplicable
  | c :: cs => do
    let d ← c
    match d with
    | .deny => pure .deny
    | .permit => denyOverridesPolicies true cs
    | .notApplicable => denyOverridesPolicies atLeastOnePermit cs
    | .indeterminate => pure .deny

/-- Loop of `PermitOverridesPolicyCombiningAlg.evaluate`.
Models: ndg/xacml/core/policy_combining_alg.py:105-138. -/
def permitOverridesPolicies (atLeastOneError atLeastOneDeny : Bool) :
    List (EvalM Decision) → EvalM Decision
  | [] =>
    if atLeastOneDeny then pure .deny
    else if atLeastOneError then pure .indeterminate
    else pure .notApplicable
  | c :: cs => do
    let d ← c
    match d with
    | .deny => permitOverridesPolicies atLeastOneError true cs
    | .permit => pure .permit
    | .notApplicable => permitOverridesPolicies atLeastOneError atLeastOneDeny cs
    | .indeterminate => permitOverridesPolicies true atLeastOneDeny cs

/-- `ruleCombiningAlg.evaluate(rules, context)`; no algorithm set raises AttributeError.
Models: ndg/xacml/core/policy.py:390-397. -/
def combineRules (alg : Option Alg) (cs : List RuleChild) : EvalM Decision :=
  match alg with
  | none => EvalM.throw .attributeError
  | some .denyOverrides => denyOverridesRules {} cs
  | some .permitOverrides => permitOverridesRules {} cs
  | some .firstApplicable => firstApplicable (cs.map RuleChild.run)

/-- `policyCombiningAlg.evaluate(policies, context)`; no algorithm set raises AttributeError.
Models: ndg/xacml/core/policyset.py:383-390. -/
def combinePolicies (alg : Option Alg) (cs : List (EvalM Decision)) : EvalM Decision :=
  match alg with
  | none => EvalM.throw .attributeError
  | some .denyOverrides => denyOverridesPolicies false cs
  | some .permitOverrides => permitOverridesPolicies false false cs
  | some .firstApplicable => firstApplicable cs

/-! ## Policies and policy sets -/

/-- Obligation (only what a PDP would need to return it).
Models: ndg/xacml/core/obligation.py:142-224. -/
structure Obligation where
  obligationId : Option String
  fulfillOn : Option String
  deriving DecidableEq

/-- Fields common to Policy and PolicySet. Models: ndg/xacml/core/policy.py:96-140,
ndg/xacml/core/policyset.py:94-131. `alg` is the algorithm object in force, `algId` the
identifier string. -/
structure Header where
  ident : Option String := none
  version : String := "2.0"
  description : Option String := none
  xpathVersion : Option String := none
  algId : Option String := none
  alg : Option Alg
  target : Option Target
  obligations : List Obligation := []

/-- Policy or PolicySet. Models: ndg/xacml/core/policy.py, ndg/xacml/core/policyset.py
(policies is a TypedList(PolicyBase), so policy sets nest). -/
inductive PolicyNode where
  | policy (hdr : Header) (rules : List Rule)
  | policySet (hdr : Header) (children : List PolicyNode)

/-- `PolicyBase.evaluate` given the combining computation.
Models: ndg/xacml/core/policybase.py:124-174. -/
def policyBaseEvaluate (env : Env) (hdr : Header) (ctx : Ctx) (combine : EvalM Decision) :
    EvalM Decision := catchAll do
  let tm ← targetMatch env hdr.target ctx
  if !tm then pure .notApplicable else combine

/-- A rule as seen by the combining algorithms. -/
def Rule.child (env : Env) (ctx : Ctx) (r : Rule) : RuleChild :=
  { effect := r.effect, run := r.evaluate env ctx }

mutual
/-- `Policy.evaluate` / `PolicySet.evaluate`.
Models: ndg/xacml/core/policybase.py:124-174, ndg/xacml/core/policy.py:390-397,
ndg/xacml/core/policyset.py:383-390. -/
def PolicyNode.evaluate (env : Env) (ctx : Ctx) : PolicyNode → EvalM Decision
  | .policy hdr rules =>
    policyBaseEvaluate env hdr ctx (combineRules hdr.alg (rules.map (Rule.child env ctx)))
  | .policySet hdr children =>
    policyBaseEvaluate env hdr ctx (combinePolicies hdr.alg (PolicyNode.evaluators env ctx children))
/-- The children's `evaluate` methods, to be called (lazily) by the combining algorithm. -/
def PolicyNode.evaluators (env : Env) (ctx : Ctx) : List PolicyNode → List (EvalM Decision)
  | [] => []
  | p :: ps => PolicyNode.evaluate env ctx p :: PolicyNode.evaluators env ctx ps
end

/-! ## PDP -/

/-- Status code identifiers. Models: ndg/xacml/core/context/result.py:19-112. -/
inductive StatusCode where
  | ok | missingAttribute | processingError | syntaxError
  deriving DecidableEq, Repr

/-- Result. Models: ndg/xacml/core/context/result.py:483-661. -/
structure Result where
  decision : Decision
  status : StatusCode
  resourceId : Option String := none
  obligations : List Obligation := []
  deriving DecidableEq

/-- Response. Models: ndg/xacml/core/context/response.py. -/
structure Response where
  results : List Result
  deriving DecidableEq

/-- `Result.createInitialised(decision)`: status OK, no obligations, resourceId ignored.
Models: ndg/xacml/core/context/result.py:521-552, 147-165. -/
def Result.createInitialised (d : Decision) : Result := { decision := d, status := .ok }

/-- Exceptions that are instances of XacmlContextError.
Models: ndg/xacml/core/context/exceptions.py:16-64. -/
def Exc.isContextError : Exc → Bool
  | .xacmlContextError | .xacmlContextTypeError | .missingAttributeError => true
  | _ => false

/-- `PolicyBase.evaluateResponse`. The handler for XacmlContextError only rebinds a local
variable, so the response would keep its initial NotApplicable result.
Models: ndg/xacml/core/policybase.py:99-122. -/
def PolicyNode.evaluateResponse (env : Env) (p : PolicyNode) (ctx : Ctx) : EvalM Response := fun w =>
  let result := Result.createInitialised .notApplicable
  match p.evaluate env ctx w with
  | (.ok d, w') => (.ok { results := [{ result with decision := d }] }, w')
  | (.error e, w') =>
    if e.isContextError then (.ok { results := [result] }, w') else (.error e, w')

/-- `PDP.evaluate(request)`. Models: ndg/xacml/core/context/pdp.py:92-103. -/
def pdpEvaluate (env : Env) (policy : Option PolicyNode) (ctx : Ctx) : EvalM Response :=
  match policy with
  | none => EvalM.throw .attributeError
  | some p => p.evaluateResponse env ctx

end Xacml
