import Verif.Model.Policy

/-!
# The shared, mutable `Decision` objects

`Decision.PERMIT`, `.DENY`, `.INDETERMINATE`, `.NOT_APPLICABLE` are single objects whose `value`
can be assigned (the read-only overrides at result.py:416-473 do not take effect, because the
`value` property is bound to the base class setter). Here evaluation returns references to
objects and compares through them.
-/
namespace Xacml

/-- A `Decision` object: one of the four constants (named by the value it was created with) or
an object created since. Models: ndg/xacml/core/context/result.py:477-480. -/
inductive DecRef where
  | const (c : Decision)
  | fresh (n : Nat)
  deriving DecidableEq

/-- Values of all `Decision` objects. -/
structure Heap where
  consts : Decision → Decision
  fresh : List Decision

/-- The heap after importing the package. -/
def Heap.initial : Heap := ⟨id, []⟩

/-- `decision.value`. Models: ndg/xacml/core/context/result.py:363-370. References outside the
heap do not occur; they are mapped to Indeterminate. -/
def Heap.value (h : Heap) : DecRef → Decision
  | .const c => h.consts c
  | .fresh n => h.fresh.getD n .indeterminate

/-- The strings accepted by `_setValue`. Models: ndg/xacml/core/context/result.py:281-292. -/
def Decision.ofString : String → Option Decision
  | "Permit" => some .permit
  | "Deny" => some .deny
  | "Indeterminate" => some .indeterminate
  | "NotApplicable" => some .notApplicable
  | _ => none

/-- What a caller may try to assign to `decision.value`: a string, a Decision, anything else. -/
inductive DecArg where
  | str (s : String)
  | decision (r : DecRef)
  | other

/-- `decision.value = x`. Models: ndg/xacml/core/context/result.py:342-361. -/
def Heap.assign (h : Heap) (r : DecRef) (x : DecArg) : Except Exc Unit × Heap :=
  let put (d : Decision) : Heap :=
    match r with
    | .const c => { h with consts := fun c' => if c' = c then d else h.consts c' }
    | .fresh n => { h with fresh := h.fresh.set n d }
  match x with
  | .str s =>
    match Decision.ofString s with
    | some d => (.ok (), put d)
    | none => (.error .attributeError, h)
  | .decision r' => (.ok (), put (h.value r'))
  | .other => (.error .typeError, h)

/-- Process state with the heap of decisions. -/
structure HWorld where
  world : World
  heap : Heap

/-- Evaluation with the heap. -/
def HM (α : Type) := HWorld → Except Exc α × HWorld

instance : Monad HM where
  pure a := fun w => (.ok a, w)
  bind m f := fun w =>
    match m w with
    | (.ok a, w') => f a w'
    | (.error e, w') => (.error e, w')

def HM.throw {α} (e : Exc) : HM α := fun w => (.error e, w)

/-- Evaluation of targets and conditions does not touch Decision objects. -/
def HM.lift {α} (m : EvalM α) : HM α := fun w =>
  match m w.world with
  | (x, w') => (x, { w with world := w' })

/-- `Decision(d)`. Models: ndg/xacml/core/context/result.py:312-314. -/
def HM.alloc (d : Decision) : HM DecRef := fun w =>
  (.ok (.fresh w.heap.fresh.length), { w with heap := { w.heap with fresh := w.heap.fresh ++ [d] } })

/-- `decision == Decision.<C>`: the current values are compared.
Models: ndg/xacml/core/context/result.py:389-413. -/
def HM.isConst (r : DecRef) (c : Decision) : HM Bool := fun w =>
  (.ok (w.heap.value r == w.heap.consts c), w)

/-- `except Exception: decision = Decision.INDETERMINATE`.
Models: ndg/xacml/core/rule.py:396-401, ndg/xacml/core/policybase.py:164-174. -/
def HM.catchAll (m : HM DecRef) : HM DecRef := fun w =>
  match m w with
  | (.ok d, w') => (.ok d, w')
  | (.error _, w') => (.ok (.const .indeterminate), w')

/-- `Rule.evaluate` returning a Decision object: a new one for the effect, the shared constants
otherwise. Simplification: the object created at rule.py:356 and never used is left out.
Models: ndg/xacml/core/rule.py:342-401. -/
def Rule.evaluateH (env : Env) (r : Rule) (ctx : Ctx) : HM DecRef := HM.catchAll do
  let tm ← HM.lift (targetMatch env r.target ctx)
  if !tm then pure (.const .notApplicable)
  else do
    let status ← HM.lift (match r.condition with
      | some c => c.evaluate env ctx
      | none => pure (.native (.bool true)))
    if status.truthy then
      match r.effect with
      | some e => HM.alloc e.toDecision
      | none => HM.throw .attributeError
    else pure (.const .notApplicable)

/-- A rule as the algorithms see it. -/
structure RuleChildH where
  effect : Option Effect
  run : HM DecRef

/-- `rule.effect.value == Decision.DENY`: the string is compared with the constant's current value.
Models: ndg/xacml/core/rule_combining_alg.py:91. -/
def effectIsConst (e : Option Effect) (c : Decision) : HM Bool := fun w =>
  match e with
  | none => (.error .attributeError, w)
  | some e => (.ok (e.toDecision == w.heap.consts c), w)

/-- `rule.effect.value == Decision.PERMIT_STR`. Models: ndg/xacml/core/rule_combining_alg.py:145. -/
def effectIsPermitStr (e : Option Effect) : HM Bool := fun w =>
  match e with
  | none => (.error .attributeError, w)
  | some e => (.ok (e == .permit), w)

/-- Models: ndg/xacml/core/rule_combining_alg.py:72-105. -/
def denyOverridesRulesH (f : Flags) : List RuleChildH → HM DecRef
  | [] =>
    if f.potential then pure (.const .indeterminate)
    else if f.other then pure (.const .permit)
    else if f.error then pure (.const .indeterminate)
    else pure (.const .notApplicable)
  | c :: cs => do
    let d ← c.run
    if (← HM.isConst d .deny) then pure (.const .deny)
    else if (← HM.isConst d .permit) then denyOverridesRulesH { f with other := true } cs
    else if (← HM.isConst d .notApplicable) then denyOverridesRulesH f cs
    else if (← HM.isConst d .indeterminate) then
      if (← effectIsConst c.effect .deny) then
        denyOverridesRulesH { f with error := true, potential := true } cs
      else denyOverridesRulesH { f with error := true } cs
    else denyOverridesRulesH f cs

/-- Models: ndg/xacml/core/rule_combining_alg.py:124-167. -/
def permitOverridesRulesH (f : Flags) : List RuleChildH → HM DecRef
  | [] =>
    if f.potential then pure (.const .indeterminate)
    else if f.other then pure (.const .deny)
    else if f.error then pure (.const .indeterminate)
    else pure (.const .notApplicable)
  | c :: cs => do
    let d ← c.run
    if (← HM.isConst d .deny) then permitOverridesRulesH { f with other := true } cs
    else if (← HM.isConst d .permit) then pure (.const .permit)
    else if (← HM.isConst d .notApplicable) then permitOverridesRulesH f cs
    else if (← HM.isConst d .indeterminate) then
      if (← effectIsPermitStr c.effect) then
        permitOverridesRulesH { f with error := true, potential := true } cs
      else permitOverridesRulesH { f with error := true } cs
    else permitOverridesRulesH f cs

/-- Models: ndg/xacml/core/rule_combining_alg.py:186-208, ndg/xacml/core/policy_combining_alg.py:157-180. -/
def firstApplicableH : List (HM DecRef) → HM DecRef
  | [] => pure (.const .notApplicable)
  | c :: cs => do
    let d ← c
    if (← HM.isConst d .deny) then pure (.const .deny)
    else if (← HM.isConst d .permit) then pure (.const .permit)
    else if (← HM.isConst d .notApplicable) then firstApplicableH cs
    else if (← HM.isConst d .indeterminate) then pure (.const .indeterminate)
    else firstApplicableH cs

/-- Models: ndg/xacml/core/policy_combining_alg.py:67-87. -/
def denyOverridesPoliciesH (atLeastOnePermit : Bool) : List (HM DecRef) → HM DecRef
  | [] => if atLeastOnePermit then pure (.const .permit) else pure (.const .notApplicable)
  | c :: cs => do
    let d ← c
    if (← HM.isConst d .deny) then pure (.const .deny)
    else if (← HM.isConst d .permit) then denyOverridesPoliciesH true cs
    else if (← HM.isConst d .notApplicable) then denyOverridesPoliciesH atLeastOnePermit cs
    else if (← HM.isConst d .indeterminate) then pure (.const .deny)
    else denyOverridesPoliciesH atLeastOnePermit cs

/-- Models: ndg/xacml/core/policy_combining_alg.py:105-138. -/
def permitOverridesPoliciesH (atLeastOneError atLeastOneDeny : Bool) : List (HM DecRef) → HM DecRef
  | [] =>
    if atLeastOneDeny then pure (.const .deny)
    else if atLeastOneError then pure (.const .indeterminate)
    else pure (.const .notApplicable)
  | c :: cs => do
    let d ← c
    if (← HM.isConst d .deny) then permitOverridesPoliciesH atLeastOneError true cs
    else if (← HM.isConst d .permit) then pure (.const .permit)
    else if (← HM.isConst d .notApplicable) then permitOverridesPoliciesH atLeastOneError atLeastOneDeny cs
    else if (← HM.isConst d .indeterminate) then permitOverridesPoliciesH true atLeastOneDeny cs
    else permitOverridesPoliciesH atLeastOneError atLeastOneDeny cs

/-- Models: ndg/xacml/core/policy.py:390-397. -/
def combineRulesH (alg : Option Alg) (cs : List RuleChildH) : HM DecRef :=
  match alg with
  | none => HM.throw .attributeError
  | some .denyOverrides => denyOverridesRulesH {} cs
  | some .permitOverrides => permitOverridesRulesH {} cs
  | some .firstApplicable => firstApplicableH (cs.map RuleChildH.run)

/-- Models: ndg/xacml/core/policyset.py:383-390. -/
def combinePoliciesH (alg : Option Alg) (cs : List (HM DecRef)) : HM DecRef :=
  match alg with
  | none => HM.throw .attributeError
  | some .denyOverrides => denyOverridesPoliciesH false cs
  | some .permitOverrides => permitOverridesPoliciesH false false cs
  | some .firstApplicable => firstApplicableH cs

/-- `PolicyBase.evaluate`. Models: ndg/xacml/core/policybase.py:124-174. -/
def policyBaseEvaluateH (env : Env) (hdr : Header) (ctx : Ctx) (combine : HM DecRef) : HM DecRef :=
  HM.catchAll do
    let tm ← HM.lift (targetMatch env hdr.target ctx)
    if !tm then pure (.const .notApplicable) else combine

def Rule.childH (env : Env) (ctx : Ctx) (r : Rule) : RuleChildH :=
  { effect := r.effect, run := r.evaluateH env ctx }

mutual
/-- `Policy.evaluate` / `PolicySet.evaluate` returning a Decision object.
Models: as `PolicyNode.evaluate`. -/
def PolicyNode.evaluateH (env : Env) (ctx : Ctx) : PolicyNode → HM DecRef
  | .policy hdr rules =>
    policyBaseEvaluateH env hdr ctx (combineRulesH hdr.alg (rules.map (Rule.childH env ctx)))
  | .policySet hdr children =>
    policyBaseEvaluateH env hdr ctx (combinePoliciesH hdr.alg (PolicyNode.evaluatorsH env ctx children))
def PolicyNode.evaluatorsH (env : Env) (ctx : Ctx) : List PolicyNode → List (HM DecRef)
  | [] => []
  | p :: ps => PolicyNode.evaluateH env ctx p :: PolicyNode.evaluatorsH env ctx ps
end

/-- `PDP.evaluate`: the object found as `response.results[0].decision`. A new object holding the
value of NOT_APPLICABLE is created first and replaced by the object evaluation returned.
Models: ndg/xacml/core/context/pdp.py:92-103, ndg/xacml/core/policybase.py:99-122,
ndg/xacml/core/context/result.py:542-544. -/
def pdpDecisionH (env : Env) (p : PolicyNode) (ctx : Ctx) : HM DecRef := fun w =>
  match HM.alloc (w.heap.consts .notApplicable) w with
  | (.error e, w') => (.error e, w')
  | (.ok initial, w') =>
    match p.evaluateH env ctx w' with
    | (.ok d, w'') => (.ok d, w'')
    | (.error e, w'') => if e.isContextError then (.ok initial, w'') else (.error e, w'')

/-- What a process does over time: evaluate requests, and assign to decisions it received. -/
inductive PdpEvent where
  | evaluate (env : Env) (p : PolicyNode) (ctx : Ctx)
  | assign (r : DecRef) (x : DecArg)

/-- State after an event. -/
def PdpEvent.step (w : HWorld) : PdpEvent → HWorld
  | .evaluate env p ctx => (pdpDecisionH env p ctx w).2
  | .assign r x => { w with heap := (w.heap.assign r x).2 }

/-- State after a list of events. -/
def pdpRun (w : HWorld) (es : List PdpEvent) : HWorld := es.foldl PdpEvent.step w

end Xacml
