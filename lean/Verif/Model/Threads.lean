import Verif.Model.Policy
import Verif.Model.Prog
import Verif.Model.Str

/-!
# Threads

Evaluation again, cut into the steps between which another thread may run. What evaluations share
is the cache of compiled regular expressions (a class attribute), the classes registered for data
types, the PIP, and the policy held by the PDP; every read or write of one of these is one step, and everything else (local variables,
the request, policy objects, which evaluation does not change) is not visible to other threads.

Simplifications: one read or one write of a dictionary entry or attribute is atomic (as under
CPython's global interpreter lock); a PIP call is one step; the shared `Decision` constants are
not written by evaluation (see `Verif.Model.DecisionHeap`) and are left out.
-/
namespace Xacml

/-- What the threads of a process share: the world, the policy of a PDP, and the classes for data types (the
map in `Env` is not used by threads).
Models: ndg/xacml/core/functions/v1/regexp_match.py:44, ndg/xacml/core/context/pdp.py:37-43,
ndg/xacml/core/attributevalue.py:274-289. -/
structure Shared where
  world : World
  policy : Option PolicyNode
  classMap : List (String × AVClass)

/-- A computation on this shared state. -/
abbrev Thread := Prog Shared

/-- `compiled_regexes.get(...)`, and if it is missing compile, then store: two steps, between
which another thread may store the same pattern.
Models: ndg/xacml/core/functions/v1/regexp_match.py:64-67. -/
def getRegexT (env : Env) (pat : String) : Thread (String → Bool) := do
  let found ← Prog.read fun s => s.world.cache.lookup pat
  match found with
  | some m => pure m
  | none =>
    match env.re pat with
    | .ok m => do
      Prog.write fun s => { s with world := { s.world with cache := (pat, m) :: s.world.cache } }
      pure m
    | .error e => Prog.throw e

/-- Models: ndg/xacml/core/functions/v1/regexp_match.py:46-68. -/
def regexpMatchFnT (env : Env) (t : AVClass) (args : List PyVal) : Thread PyVal :=
  match args with
  | [a, b] =>
    match a, b with
    | .av p, .av i =>
      if p.isInst t then
        if i.isInst t then
          match p.value with
          | some (.str pat) => do
            let m ← getRegexT env pat
            match i.value with
            | some (.str s) => pure (.native (.bool (m s)))
            | _ => Prog.throw .typeError
          | _ => Prog.throw .typeError
        else Prog.throw .typeError
      else Prog.throw .typeError
    | _, _ => Prog.throw .typeError
  | _ => Prog.throw .typeError

/-- `function.evaluate(*inputs)`: only regexp-match touches shared state. -/
def Func.evaluateT (env : Env) : Func → List PyVal → Thread PyVal
  | .equal t, args => Prog.ofExcept (equalFn t args)
  | .matchFn t, args => Prog.ofExcept (matchFnEval t args)
  | .bag t, args => Prog.ofExcept (bagFn t args)
  | .oneAndOnly t, args => Prog.ofExcept (oneAndOnlyFn t args)
  | .atLeastOneMemberOf t, args => Prog.ofExcept (atLeastOneMemberOfFn t args)
  | .and, args => Prog.ofExcept (andFn args)
  | .not, args => Prog.ofExcept (notFn args)
  | .round, args => Prog.ofExcept (roundFn args)
  | .regexpMatch t, args => regexpMatchFnT env t args
  | .concatenate t, args => Prog.ofExcept (concatenateFn t args)
  | .custom f, args => Prog.ofExcept (f args)

/-- One PIP call is one step. Models: ndg/xacml/core/attributedesignator.py:192. -/
def pipQueryT (pip : Pip) (q : PipQuery) : Thread PipAnswer :=
  .act (fun s => { s with world := { s.world with pipLog := s.world.pipLog ++ [q] } })
    fun s => .done (pip s.world.pipLog q)

/-- Models: ndg/xacml/core/attributedesignator.py:178-205. -/
def collectSubjectsT (r : Request) (d : Designator) : Bag → List CtxSubject → Thread Bag
  | b, [] => pure b
  | b, s :: ss => do
    let b ← Prog.ofExcept (collectAttrs d b s.attributes)
    match r.ctxHandler with
    | none => collectSubjectsT r d b ss
    | some pip => do
      let ans ← pipQueryT pip { ctx := r.data, designator := d }
      let b ← Prog.ofExcept (addPip b ans)
      collectSubjectsT r d b ss

/-- `AttributeValueClassFactory()(dataType)`: one step.
Models: ndg/xacml/core/attributevalue.py:307-315. -/
def classLookupT (dataType : Option String) : Thread (Option AVClass) :=
  Prog.read fun s => classLookup s.classMap dataType

/-- Models: ndg/xacml/core/attributedesignator.py:149-216, 227-269, 280-322, 333-376. -/
def designatorEvalT (cat : Category) (d : Designator) (ctx : Ctx) : Thread PyVal :=
  match ctx with
  | none => Prog.throw .typeError
  | some r => do
    let cls ← classLookupT d.dataType
    let bag : Bag := { elementType := cls, items := [] }
    match cat with
    | .subject => do
      let b ← collectSubjectsT r d bag r.data.subjects
      Prog.ofExcept (checkPresent d.mustBePresent b)
    | .resource => do
      let b ← Prog.ofExcept (collectResources d bag r.data.resources)
      Prog.ofExcept (checkPresent d.mustBePresent b)
    | .action =>
      match r.data.action with
      | none => Prog.throw .attributeError
      | some attrs => do
        let b ← Prog.ofExcept (collectAttrs d bag attrs)
        Prog.ofExcept (checkPresent d.mustBePresent b)
    | .environment =>
      match r.data.environment with
      | none => Prog.throw .attributeError
      | some attrs => do
        let b ← Prog.ofExcept (collectAttrs d bag attrs)
        Prog.ofExcept (checkPresent d.mustBePresent b)

/-- Models: ndg/xacml/core/attributeselector.py:109-148. -/
def selectorEvalT (sel : Selector) (ctx : Ctx) : Thread PyVal :=
  match ctx with
  | none => Prog.throw .typeError
  | some r =>
    match r.attributeSelector with
    | none => Prog.throw .valueError
    | some xp =>
      match sel.dataType with
      | none => Prog.throw .xmlParseError
      | some dt => do
        let cls ← classLookupT (some dt)
        match cls with
        | none => Prog.throw .xmlParseError
        | some c =>
          match xp sel.path with
          | .error e => Prog.throw e
          | .ok texts =>
            match selectValues c dt texts with
            | .error e => Prog.throw e
            | .ok vs => Prog.ofExcept (checkPresent sel.mustBePresent { elementType := some c, items := vs })

mutual
/-- Models: ndg/xacml/core/attributevalue.py:187-196, attributedesignator.py, attributeselector.py,
ndg/xacml/core/apply.py:184-204. -/
def Expr.evaluateT (env : Env) (ctx : Ctx) : Expr → Thread PyVal
  | .value v => pure (.av v)
  | .designator cat d => designatorEvalT cat d ctx
  | .selector s => selectorEvalT s ctx
  | .apply fn args => do
    let inputs ← Expr.evaluateListT env ctx args
    match fn with
    | some f => f.evaluateT env inputs
    | none => Prog.throw .attributeError
/-- Models: ndg/xacml/core/apply.py:195-198. -/
def Expr.evaluateListT (env : Env) (ctx : Ctx) : List Expr → Thread (List PyVal)
  | [] => pure []
  | e :: es => do
    let v ← Expr.evaluateT env ctx e
    let vs ← Expr.evaluateListT env ctx es
    pure (v :: vs)
end

/-- Models: ndg/xacml/core/match.py:322-341. -/
def matchOneT (env : Env) (m : Match) (v : AttrVal) : Thread PyVal := do
  let x ← match m.func with
    | some f => f.evaluateT env [optAv m.value, .av v]
    | none => Prog.throw .attributeError
  Prog.ofExcept (debugCheck env.debug x)
  pure x

/-- Models: ndg/xacml/core/match.py:318-341. -/
def matchLoopT (env : Env) (m : Match) : List AttrVal → Thread (List PyVal)
  | [] => pure []
  | v :: vs => do
    let x ← matchOneT env m v
    let xs ← matchLoopT env m vs
    pure (x :: xs)

/-- Models: ndg/xacml/core/match.py:292-307. -/
def Match.requestValuesT (env : Env) (m : Match) (ctx : Ctx) : Thread PyVal :=
  match m.designator with
  | some (cat, d) => designatorEvalT cat d ctx
  | none =>
    match m.selector with
    | some s => selectorEvalT s ctx
    | none => Prog.throw .xacmlContextError

/-- Models: ndg/xacml/core/match.py:280-347. -/
def Match.evaluateT (env : Env) (m : Match) (ctx : Ctx) : Thread Bool := do
  let vals ← m.requestValuesT env ctx
  match vals with
  | .bag b => do
    let xs ← matchLoopT env m b.items
    pure (xs.any PyVal.truthy)
  | _ => Prog.throw .typeError

/-- Models: ndg/xacml/core/target.py:194-195. -/
def evalMatchesT (env : Env) (ctx : Ctx) : List Match → Thread (List Bool)
  | [] => pure []
  | m :: ms => do
    let b ← m.evaluateT env ctx
    let bs ← evalMatchesT env ctx ms
    pure (b :: bs)

/-- Models: ndg/xacml/core/target.py:163-198. -/
def matchChildT (env : Env) (ctx : Ctx) (c : TargetChild) : Thread Bool := do
  let bs ← evalMatchesT env ctx c.matches_
  pure (bs.all id)

/-- Models: ndg/xacml/core/target.py:151-156. -/
def sectionLoopT (env : Env) (ctx : Ctx) (status : Bool) : List TargetChild → Thread Bool
  | [] => pure status
  | c :: cs => do
    let b ← matchChildT env ctx c
    sectionLoopT env ctx (if b then true else status) cs

/-- Models: ndg/xacml/core/target.py:135-156. -/
def matchSectionT (env : Env) (ctx : Ctx) (cs : List TargetChild) : Thread Bool :=
  if cs.length = 0 then pure true else sectionLoopT env ctx false cs

/-- Models: ndg/xacml/core/target.py:102-161. -/
def Target.matchT (env : Env) (t : Target) (ctx : Ctx) : Thread Bool := do
  let s ← matchSectionT env ctx t.subjects
  let r ← matchSectionT env ctx t.resources
  let a ← matchSectionT env ctx t.actions
  let e ← matchSectionT env ctx t.environments
  pure (s && r && a && e)

/-- Models: ndg/xacml/core/rule.py:359-366, ndg/xacml/core/policybase.py:143-151. -/
def targetMatchT (env : Env) (t : Option Target) (ctx : Ctx) : Thread Bool :=
  match t with
  | some t => t.matchT env ctx
  | none => pure true

/-- Models: ndg/xacml/core/condition.py:62-71. -/
def Condition.evaluateT (env : Env) (c : Condition) (ctx : Ctx) : Thread PyVal :=
  match c.expression with
  | some e => e.evaluateT env ctx
  | none => Prog.throw .attributeError

/-- Models: ndg/xacml/core/rule.py:396-401, ndg/xacml/core/policybase.py:164-174. -/
def catchAllT (t : Thread Decision) : Thread Decision := t.handle fun _ => pure .indeterminate

/-- Models: ndg/xacml/core/rule.py:352-394. -/
def Rule.bodyT (env : Env) (r : Rule) (ctx : Ctx) : Thread Decision := do
  let tm ← targetMatchT env r.target ctx
  if !tm then pure .notApplicable
  else do
    let status ← match r.condition with
      | some c => c.evaluateT env ctx
      | none => pure (.native (.bool true))
    if status.truthy then
      match r.effect with
      | some e => pure e.toDecision
      | none => Prog.throw .attributeError
    else pure .notApplicable

/-- Models: ndg/xacml/core/rule.py:342-401. -/
def Rule.evaluateT (env : Env) (r : Rule) (ctx : Ctx) : Thread Decision := catchAllT (r.bodyT env ctx)

/-- A rule as a combining algorithm sees it. -/
structure RuleChildT where
  effect : Option Effect
  run : Thread Decision

/-- Models: ndg/xacml/core/rule_combining_alg.py:72-105. -/
def denyOverridesRulesT (f : Flags) : List RuleChildT → Thread Decision
  | [] =>
    if f.potential then pure .indeterminate
    else if f.other then pure .permit
    else if f.error then pure .indeterminate
    else pure .notApplicable
  | c :: cs => do
    let d ← c.run
    match d with
    | .deny => pure .deny
    | .permit => denyOverridesRulesT { f with other := true } cs
    | .notApplicable => denyOverridesRulesT f cs
    | .indeterminate =>
      match c.effect with
      | none => Prog.throw .attributeError
      | some .deny => denyOverridesRulesT { f with error := true, potential := true } cs
      | some .permit => denyOverridesRulesT { f with error := true } cs

/-- Models: ndg/xacml/core/rule_combining_alg.py:124-167. -/
def permitOverridesRulesT (f : Flags) : List RuleChildT → Thread Decision
  | [] =>
    if f.potential then pure .indeterminate
    else if f.other then pure .deny
    else if f.error then pure .indeterminate
    else pure .notApplicable
  | c :: cs => do
    let d ← c.run
    match d with
    | .deny => permitOverridesRulesT { f with other := true } cs
    | .permit => pure .permit
    | .notApplicable => permitOverridesRulesT f cs
    | .indeterminate =>
      match c.effect with
      | none => Prog.throw .attributeError
      | some .permit => permitOverridesRulesT { f with error := true, potential := true } cs
      | some .deny => permitOverridesRulesT { f with error := true } cs

/-- Models: ndg/xacml/core/rule_combining_alg.py:186-208, ndg/xacml/core/policy_combining_alg.py:157-180. -/
def firstApplicableT : List (Thread Decision) → Thread Decision
  | [] => pure .notApplicable
  | c :: cs => do
    let d ← c
    match d with
    | .deny => pure .deny
    | .permit => pure .permit
    | .notApplicable => firstApplicableT cs
    | .indeterminate => pure .indeterminate

/-- Models: ndg/xacml/core/policy_combining_alg.py:67-87. -/
def denyOverridesPoliciesT (atLeastOnePermit : Bool) : List (Thread Decision) → Thread Decision
  | [] => if atLeastOnePermit then pure .permit else pure .notApplicable
  | c :: cs => do
    let d ← c
    match d with
    | .deny => pure .deny
    | .permit => denyOverridesPoliciesT true cs
    | .notApplicable => denyOverridesPoliciesT atLeastOnePermit cs
    | .indeterminate => pure .deny

/-- Models: ndg/xacml/core/policy_combining_alg.py:105-138. -/
def permitOverridesPoliciesT (atLeastOneError atLeastOneDeny : Bool) :
    List (Thread Decision) → Thread Decision
  | [] =>
    if atLeastOneDeny then pure .deny
    else if atLeastOneError then pure .indeterminate
    else pure .notApplicable
  | c :: cs => do
    let d ← c
    match d with
    | .deny => permitOverridesPoliciesT atLeastOneError true cs
    | .permit => pure .permit
    | .notApplicable => permitOverridesPoliciesT atLeastOneError atLeastOneDeny cs
    | .indeterminate => permitOverridesPoliciesT true atLeastOneDeny cs

/-- Models: ndg/xacml/core/policy.py:390-397. -/
def combineRulesT (alg : Option Alg) (cs : List RuleChildT) : Thread Decision :=
  match alg with
  | none => Prog.throw .attributeError
  | some .denyOverrides => denyOverridesRulesT {} cs
  | some .permitOverrides => permitOverridesRulesT {} cs
  | some .firstApplicable => firstApplicableT (cs.map RuleChildT.run)

/-- Models: ndg/xacml/core/policyset.py:383-390. -/
def combinePoliciesT (alg : Option Alg) (cs : List (Thread Decision)) : Thread Decision :=
  match alg with
  | none => Prog.throw .attributeError
  | some .denyOverrides => denyOverridesPoliciesT false cs
  | some .permitOverrides => permitOverridesPoliciesT false false cs
  | some .firstApplicable => firstApplicableT cs

/-- Models: ndg/xacml/core/policybase.py:124-174. -/
def policyBaseEvaluateT (env : Env) (hdr : Header) (ctx : Ctx) (combine : Thread Decision) :
    Thread Decision := catchAllT do
  let tm ← targetMatchT env hdr.target ctx
  if !tm then pure .notApplicable else combine

/-- A rule as seen by the combining algorithms. -/
def Rule.childT (env : Env) (ctx : Ctx) (r : Rule) : RuleChildT :=
  { effect := r.effect, run := r.evaluateT env ctx }

mutual
/-- Models: ndg/xacml/core/policybase.py:124-174, ndg/xacml/core/policy.py:390-397,
ndg/xacml/core/policyset.py:383-390. -/
def PolicyNode.evaluateT (env : Env) (ctx : Ctx) : PolicyNode → Thread Decision
  | .policy hdr rules =>
    policyBaseEvaluateT env hdr ctx (combineRulesT hdr.alg (rules.map (Rule.childT env ctx)))
  | .policySet hdr children =>
    policyBaseEvaluateT env hdr ctx (combinePoliciesT hdr.alg (PolicyNode.evaluatorsT env ctx children))
/-- The children's `evaluate` methods. -/
def PolicyNode.evaluatorsT (env : Env) (ctx : Ctx) : List PolicyNode → List (Thread Decision)
  | [] => []
  | p :: ps => PolicyNode.evaluateT env ctx p :: PolicyNode.evaluatorsT env ctx ps
end

/-- Models: ndg/xacml/core/policybase.py:99-122. -/
def PolicyNode.evaluateResponseT (env : Env) (p : PolicyNode) (ctx : Ctx) : Thread Response :=
  let result := Result.createInitialised .notApplicable
  Prog.handle (fun e => if e.isContextError then pure { results := [result] } else Prog.throw e) do
    let d ← p.evaluateT env ctx
    pure { results := [{ result with decision := d }] }

/-- `PDP.evaluate(request)`: `self.policy` is read once.
Models: ndg/xacml/core/context/pdp.py:92-103. -/
def pdpEvaluateT (env : Env) (ctx : Ctx) : Thread Response := do
  let policy ← Prog.read fun s => s.policy
  match policy with
  | none => Prog.throw .attributeError
  | some p => p.evaluateResponseT env ctx

/-- What the scheduler lets happen next: thread `i` makes a step, some other thread assigns
the PDP's policy (`pdp.policy = p`, as `load` does once the document is read), or some other thread sets the class for a
data type (in `addClass`, which before may have looked whether there is one).
Models: ndg/xacml/core/context/pdp.py:71, 83-91, ndg/xacml/core/attributevalue.py:317-339. -/
inductive Event where
  | run (i : Nat)
  | install (p : PolicyNode)
  | register (dataType : String) (c : AVClass)

/-- A process: the shared state and the threads, each evaluating a request. -/
structure Process where
  shared : Shared
  threads : List (Thread Response)

/-- One step of the process; a finished (or missing) thread does nothing. -/
def Process.step (s : Process) : Event → Process
  | .install p => { s with shared := { s.shared with policy := some p } }
  | .register i c => { s with shared := { s.shared with classMap := dictSet s.shared.classMap i c } }
  | .run i =>
    match s.threads[i]? with
    | some (.act f k) => { shared := f s.shared, threads := s.threads.set i (k s.shared) }
    | _ => s

/-- The process after a schedule. -/
def Process.steps (s : Process) (sched : List Event) : Process := sched.foldl Process.step s

/-- The process with one thread per request, none of which has started. -/
def Process.begin (env : Env) (shared : Shared) (ctxs : List Ctx) : Process :=
  ⟨shared, ctxs.map (pdpEvaluateT env)⟩

end Xacml
