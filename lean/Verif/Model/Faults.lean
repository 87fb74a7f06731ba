import Verif.Model.Policy

/-!
# Evaluation that can be interrupted anywhere

`Verif.Model.Policy` models evaluation when the only exceptions are those the code raises. In a
running process other exceptions arise: `RecursionError` and `MemoryError` at any call, exceptions
of logging handlers, `OSError` of a PIP, `KeyboardInterrupt` at any instruction. Here the functions
of `Verif.Model.Eval` and `Verif.Model.Policy` are written once more with points, numbered in the order in
which they are passed, at which a schedule may have an exception raised: at the entry and at the
exit of every function, around every operation on the world, and in the exception handlers.
`C91_undisturbed` proves that nothing else differs.

Operations that neither call other functions with effects nor change the world (building a bag,
calling a function of the standard) have no points inside: an exception raised in the middle of one
has the same effect as one raised before it.
-/
namespace Xacml

/-- What can be raised: an `Exception`, which `except Exception` catches, or another
`BaseException` (`KeyboardInterrupt`, `SystemExit`), which it does not. -/
inductive Raised where
  | exc (e : Exc)
  | base
  deriving DecidableEq

/-- A schedule says what, if anything, is raised at the n-th point of a run. -/
abbrev Schedule := Nat → Option Raised

/-- The world and the number of points passed. -/
structure FaultWorld where
  world : World
  points : Nat

namespace Fault

/-- Evaluation that can be interrupted. -/
def M (α : Type) := FaultWorld → Except Raised α × FaultWorld

def M.pure {α} (a : α) : M α := fun w => (.ok a, w)
def M.throw {α} (e : Exc) : M α := fun w => (.error (.exc e), w)
def M.bind {α β} (m : M α) (f : α → M β) : M β := fun w =>
  match m w with
  | (.ok a, w') => f a w'
  | (.error e, w') => (.error e, w')

instance : Monad M where
  pure := M.pure
  bind := M.bind

/-- A point at which the schedule may have an exception raised. -/
def point (s : Schedule) : M Unit := fun w =>
  match s w.points with
  | some r => (.error r, { w with points := w.points + 1 })
  | none => (.ok (), { w with points := w.points + 1 })

/-- An operation of the evaluator run as it is. -/
def lift {α} (m : EvalM α) : M α := fun w =>
  match m w.world with
  | (.ok a, w') => (.ok a, { w with world := w' })
  | (.error e, w') => (.error (.exc e), { w with world := w' })

/-- A function body between its entry and its exit. -/
def call {α} (s : Schedule) (m : M α) : M α := do
  point s
  let a ← m
  point s
  pure a

/-- An operation between two points. -/
def step {α} (s : Schedule) (m : EvalM α) : M α := call s (lift m)

/-- An operation that does not touch the world, between two points. -/
def check {α} (s : Schedule) (x : Except Exc α) : M α := step s (EvalM.ofExcept x)

/-- `<type>-regexp-match`. Models: ndg/xacml/core/functions/v1/regexp_match.py:46-68. -/
def regexpMatchFn (s : Schedule) (env : Env) (t : AVClass) (args : List PyVal) : M PyVal :=
  match args with
  | [a, b] =>
    match a, b with
    | .av p, .av i =>
      if p.isInst t then
        if i.isInst t then
          match p.value with
          | some (.str pat) => do
            let m ← step s (getRegex env pat)
            match i.value with
            | some (.str s) => pure (.native (.bool (m s)))
            | _ => M.throw .typeError
          | _ => M.throw .typeError
        else M.throw .typeError
      else M.throw .typeError
    | _, _ => M.throw .typeError
  | _ => M.throw .typeError

/-- `function.evaluate(*inputs)`. Models: ndg/xacml/core/functions/v1/*.py, v2/*.py. -/
def func (s : Schedule) (env : Env) (f : Func) (args : List PyVal) : M PyVal :=
  call s <| match f with
    | .regexpMatch t => regexpMatchFn s env t args
    | f => lift (f.evaluate env args)

/-- The loop over subjects. Models: ndg/xacml/core/attributedesignator.py:178-205. -/
def collectSubjects (s : Schedule) (r : Request) (d : Designator) : Bag → List CtxSubject → M Bag
  | b, [] => pure b
  | b, x :: xs => do
    let b ← check s (collectAttrs d b x.attributes)
    match r.ctxHandler with
    | none => collectSubjects s r d b xs
    | some pip => do
      let ans ← step s (pipQuery pip { ctx := r.data, designator := d })
      let b ← check s (addPip b ans)
      collectSubjects s r d b xs

/-- `<Category>AttributeDesignator.evaluate(context)`.
Models: ndg/xacml/core/attributedesignator.py:149-216, 227-269, 280-322, 333-376. -/
def designatorEval (s : Schedule) (env : Env) (cat : Category) (d : Designator) (ctx : Ctx) : M PyVal :=
  call s <| match ctx with
    | none => M.throw .typeError
    | some r =>
      let bag : Bag := { elementType := classLookup env.classMap d.dataType, items := [] }
      match cat with
      | .subject => do
        let b ← collectSubjects s r d bag r.data.subjects
        check s (checkPresent d.mustBePresent b)
      | .resource => do
        let b ← check s (collectResources d bag r.data.resources)
        check s (checkPresent d.mustBePresent b)
      | .action =>
        match r.data.action with
        | none => M.throw .attributeError
        | some attrs => do
          let b ← check s (collectAttrs d bag attrs)
          check s (checkPresent d.mustBePresent b)
      | .environment =>
        match r.data.environment with
        | none => M.throw .attributeError
        | some attrs => do
          let b ← check s (collectAttrs d bag attrs)
          check s (checkPresent d.mustBePresent b)

/-- `AttributeSelector.evaluate(context)`. Models: ndg/xacml/core/attributeselector.py:109-148. -/
def selectorEval (s : Schedule) (env : Env) (x : Selector) (ctx : Ctx) : M PyVal :=
  check s (Xacml.selectorEval env x ctx)

mutual
/-- `expression.evaluate(context)`.
Models: ndg/xacml/core/attributevalue.py:187-196, attributedesignator.py, attributeselector.py,
ndg/xacml/core/apply.py:184-204. -/
def expr (s : Schedule) (env : Env) (ctx : Ctx) : Expr → M PyVal
  | .value v => check s (.ok (.av v))
  | .designator cat d => designatorEval s env cat d ctx
  | .selector x => selectorEval s env x ctx
  | .apply fn args => call s do
    let inputs ← exprs s env ctx args
    match fn with
    | some f => func s env f inputs
    | none => M.throw .attributeError
/-- The loop marshalling inputs. Models: ndg/xacml/core/apply.py:195-198. -/
def exprs (s : Schedule) (env : Env) (ctx : Ctx) : List Expr → M (List PyVal)
  | [] => pure []
  | e :: es => do
    let v ← expr s env ctx e
    let vs ← exprs s env ctx es
    pure (v :: vs)
end

/-- One iteration of the loop of `MatchBase.evaluate`. Models: ndg/xacml/core/match.py:322-341. -/
def matchOne (s : Schedule) (env : Env) (m : Match) (v : AttrVal) : M PyVal := do
  let x ← match m.func with
    | some f => func s env f [optAv m.value, .av v]
    | none => M.throw .attributeError
  check s (debugCheck env.debug x)
  pure x

/-- The loop of `MatchBase.evaluate`. Models: ndg/xacml/core/match.py:318-341. -/
def matchLoop (s : Schedule) (env : Env) (m : Match) : List AttrVal → M (List PyVal)
  | [] => pure []
  | v :: vs => do
    let x ← matchOne s env m v
    let xs ← matchLoop s env m vs
    pure (x :: xs)

/-- The values designated. Models: ndg/xacml/core/match.py:292-307. -/
def requestValues (s : Schedule) (env : Env) (m : Match) (ctx : Ctx) : M PyVal :=
  match m.designator with
  | some (cat, d) => designatorEval s env cat d ctx
  | none =>
    match m.selector with
    | some x => selectorEval s env x ctx
    | none => M.throw .xacmlContextError

/-- `MatchBase.evaluate(context)`. Models: ndg/xacml/core/match.py:280-347. -/
def matchEval (s : Schedule) (env : Env) (m : Match) (ctx : Ctx) : M Bool := call s do
  let vals ← requestValues s env m ctx
  match vals with
  | .bag b => do
    let xs ← matchLoop s env m b.items
    pure (xs.any PyVal.truthy)
  | _ => M.throw .typeError

/-- Loop of `_matchChild`. Models: ndg/xacml/core/target.py:194-195. -/
def evalMatches (s : Schedule) (env : Env) (ctx : Ctx) : List Match → M (List Bool)
  | [] => pure []
  | m :: ms => do
    let b ← matchEval s env m ctx
    let bs ← evalMatches s env ctx ms
    pure (b :: bs)

/-- `Target._matchChild`. Models: ndg/xacml/core/target.py:163-198. -/
def matchChild (s : Schedule) (env : Env) (ctx : Ctx) (c : TargetChild) : M Bool := call s do
  let bs ← evalMatches s env ctx c.matches_
  pure (bs.all id)

/-- The loop over the entries of one section. Models: ndg/xacml/core/target.py:151-156. -/
def sectionLoop (s : Schedule) (env : Env) (ctx : Ctx) (status : Bool) : List TargetChild → M Bool
  | [] => pure status
  | c :: cs => do
    let b ← matchChild s env ctx c
    sectionLoop s env ctx (if b then true else status) cs

/-- One section. Models: ndg/xacml/core/target.py:135-156. -/
def matchSection (s : Schedule) (env : Env) (ctx : Ctx) (cs : List TargetChild) : M Bool :=
  if cs.length = 0 then pure true else sectionLoop s env ctx false cs

/-- `Target.match(request)`. Models: ndg/xacml/core/target.py:102-161. -/
def targetMatch_ (s : Schedule) (env : Env) (t : Target) (ctx : Ctx) : M Bool := call s do
  let x ← matchSection s env ctx t.subjects
  let r ← matchSection s env ctx t.resources
  let a ← matchSection s env ctx t.actions
  let e ← matchSection s env ctx t.environments
  pure (x && r && a && e)

/-- Models: ndg/xacml/core/rule.py:359-366, ndg/xacml/core/policybase.py:143-151. -/
def targetMatch (s : Schedule) (env : Env) (t : Option Target) (ctx : Ctx) : M Bool :=
  match t with
  | some t => targetMatch_ s env t ctx
  | none => pure true

/-- `Condition.evaluate`. Models: ndg/xacml/core/condition.py:62-71. -/
def conditionEval (s : Schedule) (env : Env) (c : Condition) (ctx : Ctx) : M PyVal := call s <|
  match c.expression with
  | some e => expr s env ctx e
  | none => M.throw .attributeError

/-- `except Exception: log.error(...); return INDETERMINATE`. The handler formats a traceback and
writes a log message, so it can raise as well.
Models: ndg/xacml/core/rule.py:396-401, ndg/xacml/core/policybase.py:164-174. -/
def catchAll (s : Schedule) (m : M Decision) : M Decision := fun w =>
  match m w with
  | (.ok d, w') => (.ok d, w')
  | (.error (.exc _), w') => (do point s; pure Decision.indeterminate : M Decision) w'
  | (.error .base, w') => (.error .base, w')

/-- The body of the `try` block of `Rule.evaluate`. Models: ndg/xacml/core/rule.py:352-394. -/
def ruleBody (s : Schedule) (env : Env) (r : Rule) (ctx : Ctx) : M Decision := do
  let tm ← targetMatch s env r.target ctx
  if !tm then pure .notApplicable
  else do
    let status ← match r.condition with
      | some c => conditionEval s env c ctx
      | none => pure (.native (.bool true))
    if status.truthy then
      match r.effect with
      | some e => pure e.toDecision
      | none => M.throw .attributeError
    else pure .notApplicable

/-- `Rule.evaluate(context)`: the call itself can raise outside of the `try` block, at its entry
and at its exit. Models: ndg/xacml/core/rule.py:342-401. -/
def rule (s : Schedule) (env : Env) (r : Rule) (ctx : Ctx) : M Decision :=
  call s (catchAll s (call s (ruleBody s env r ctx)))

/-- A rule as a combining algorithm sees it. -/
structure Child where
  effect : Option Effect
  run : M Decision

/-- Models: ndg/xacml/core/rule_combining_alg.py:72-105. -/
def denyOverridesRules (f : Flags) : List Child → M Decision
  | [] =>
    if f.potential then pure .indeterminate
    else if f.other then pure .permit
    else if f.error then pure .indeterminate
    else pure .notApplicable
  | c :: cs => do
    let d ← c.run
    match d with
    | .deny => pure .deny
    | .permit => denyOverridesRules { f with other := true } cs
    | .notApplicable => denyOverridesRules f cs
    | .indeterminate =>
      match c.effect with
      | none => M.throw .attributeError
      | some .deny => denyOverridesRules { f with error := true, potential := true } cs
      | some .permit => denyOverridesRules { f with error := true } cs

/-- Models: ndg/xacml/core/rule_combining_alg.py:124-167. -/
def permitOverridesRules (f : Flags) : List Child → M Decision
  | [] =>
    if f.potential then pure .indeterminate
    else if f.other then pure .deny
    else if f.error then pure .indeterminate
    else pure .notApplicable
  | c :: cs => do
    let d ← c.run
    match d with
    | .deny => permitOverridesRules { f with other := true } cs
    | .permit => pure .permit
    | .notApplicable => permitOverridesRules f cs
    | .indeterminate =>
      match c.effect with
      | none => M.throw .attributeError
      | some .permit => permitOverridesRules { f with error := true, potential := true } cs
      | some .deny => permitOverridesRules { f with error := true } cs

/-- Models: ndg/xacml/core/rule_combining_alg.py:186-208, ndg/xacml/core/policy_combining_alg.py:157-180. -/
def firstApplicable : List (M Decision) → M Decision
  | [] => pure .notApplicable
  | c :: cs => do
    let d ← c
    match d with
    | .deny => pure .deny
    | .permit => pure .permit
    | .notApplicable => firstApplicable cs
    | .indeterminate => pure .indeterminate

/-- Models: ndg/xacml/core/policy_combining_alg.py:67-87. -/
def denyOverridesPolicies (atLeastOnePermit : Bool) : List (M Decision) → M Decision
  | [] => if atLeastOnePermit then pure .permit else pure .notApplicable
  | c :: cs => do
    let d ← c
    match d with
    | .deny => pure .deny
    | .permit => denyOverridesPolicies true cs
    | .notApplicable => denyOverridesPolicies atLeastOnePermit cs
    | .indeterminate => pure .deny

/-- Models: ndg/xacml/core/policy_combining_alg.py:105-138. -/
def permitOverridesPolicies (atLeastOneError atLeastOneDeny : Bool) : List (M Decision) → M Decision
  | [] =>
    if atLeastOneDeny then pure .deny
    else if atLeastOneError then pure .indeterminate
    else pure .notApplicable
  | c :: cs => do
    let d ← c
    match d with
    | .deny => permitOverridesPolicies atLeastOneError true cs
    | .permit => pure .permit
    | .notApplicable => permitOverridesPolicies atLeastOneError atLeastOneDeny cs
    | .indeterminate => permitOverridesPolicies true atLeastOneDeny cs

/-- Models: ndg/xacml/core/policy.py:390-397. -/
def combineRules (s : Schedule) (alg : Option Alg) (cs : List Child) : M Decision := call s <|
  match alg with
  | none => M.throw .attributeError
  | some .denyOverrides => denyOverridesRules {} cs
  | some .permitOverrides => permitOverridesRules {} cs
  | some .firstApplicable => firstApplicable (cs.map Child.run)

/-- Models: ndg/xacml/core/policyset.py:383-390. -/
def combinePolicies (s : Schedule) (alg : Option Alg) (cs : List (M Decision)) : M Decision := call s <|
  match alg with
  | none => M.throw .attributeError
  | some .denyOverrides => denyOverridesPolicies false cs
  | some .permitOverrides => permitOverridesPolicies false false cs
  | some .firstApplicable => firstApplicable cs

/-- `PolicyBase.evaluate`. Models: ndg/xacml/core/policybase.py:124-174. -/
def policyBase (s : Schedule) (env : Env) (hdr : Header) (ctx : Ctx) (combine : M Decision) : M Decision :=
  call s <| catchAll s <| call s do
    let tm ← targetMatch s env hdr.target ctx
    if !tm then pure .notApplicable else combine

/-- A rule as seen by the combining algorithms. -/
def child (s : Schedule) (env : Env) (ctx : Ctx) (r : Rule) : Child :=
  { effect := r.effect, run := rule s env r ctx }

mutual
/-- `Policy.evaluate` / `PolicySet.evaluate`.
Models: ndg/xacml/core/policybase.py:124-174, ndg/xacml/core/policy.py:390-397,
ndg/xacml/core/policyset.py:383-390. -/
def policy (s : Schedule) (env : Env) (ctx : Ctx) : PolicyNode → M Decision
  | .policy hdr rules =>
    policyBase s env hdr ctx (combineRules s hdr.alg (rules.map (child s env ctx)))
  | .policySet hdr children =>
    policyBase s env hdr ctx (combinePolicies s hdr.alg (policies s env ctx children))
/-- The children's `evaluate` methods. -/
def policies (s : Schedule) (env : Env) (ctx : Ctx) : List PolicyNode → List (M Decision)
  | [] => []
  | p :: ps => policy s env ctx p :: policies s env ctx ps
end

/-- `PolicyBase.evaluateResponse`; the handler for XacmlContextError can raise as well.
Models: ndg/xacml/core/policybase.py:99-122. -/
def evaluateResponse (s : Schedule) (env : Env) (p : PolicyNode) (ctx : Ctx) : M Response := fun w =>
  let result := Result.createInitialised .notApplicable
  match policy s env ctx p w with
  | (.ok d, w') => (.ok { results := [{ result with decision := d }] }, w')
  | (.error (.exc e), w') =>
    if e.isContextError then (do point s; pure { results := [result] } : M Response) w'
    else (.error (.exc e), w')
  | (.error .base, w') => (.error .base, w')

/-- `PDP.evaluate(request)`. Models: ndg/xacml/core/context/pdp.py:92-103. -/
def pdp (s : Schedule) (env : Env) (policy : Option PolicyNode) (ctx : Ctx) : M Response := call s <|
  match policy with
  | none => M.throw .attributeError
  | some p => evaluateResponse s env p ctx

end Fault
end Xacml
