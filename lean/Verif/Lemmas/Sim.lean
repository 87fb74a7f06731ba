import Verif.Lemmas.Monad
import Verif.Spec.History

/-!
Two runs of the evaluator in two worlds: same results if both regex caches are coherent with the
engine and the PIP does not distinguish the logs.
-/
namespace Xacml
open Spec

/-- Every cached pattern is what the engine would compile. -/
def Coh (re : String → Except Exc (String → Bool)) (w : World) : Prop :=
  ∀ p m, w.cache.lookup p = some m → re p = .ok m

def Rel (L : List PipQuery → List PipQuery → Prop) (re : String → Except Exc (String → Bool))
    (w w' : World) : Prop := Coh re w ∧ Coh re w' ∧ L w.pipLog w'.pipLog

def Sim (L : List PipQuery → List PipQuery → Prop) (re : String → Except Exc (String → Bool)) {α}
    (m m' : EvalM α) : Prop :=
  ∀ w w', Rel L re w w' → (m w).1 = (m' w').1 ∧ Rel L re (m w).2 (m' w').2

/-- The PIP does not distinguish logs related by `L`. -/
def PipOK (L : List PipQuery → List PipQuery → Prop) (ctx : Ctx) : Prop :=
  ∀ r, ctx = some r → ∀ pip, r.ctxHandler = some pip → ∀ l l' q, L l l' →
    pip l q = pip l' q ∧ L (l ++ [q]) (l' ++ [q])

variable {L : List PipQuery → List PipQuery → Prop} {re : String → Except Exc (String → Bool)}

theorem Sim.pure {α} (a : α) : Sim L re (Pure.pure a) (Pure.pure a) := fun _ _ h => ⟨rfl, h⟩
theorem Sim.throw {α} (e : Exc) : Sim L re (EvalM.throw (α := α) e) (EvalM.throw e) := fun _ _ h => ⟨rfl, h⟩
theorem Sim.ofExcept {α} (x : Except Exc α) : Sim L re (EvalM.ofExcept x) (EvalM.ofExcept x) :=
  fun _ _ h => ⟨rfl, h⟩

theorem Sim.bind {α β} {m m' : EvalM α} {f f' : α → EvalM β} (hm : Sim L re m m')
    (hf : ∀ a, Sim L re (f a) (f' a)) : Sim L re (m >>= f) (m' >>= f') := by
  intro w w' h
  obtain ⟨h1, h2⟩ := hm w w' h
  rw [run_bind, run_bind]
  rcases hr : m w with ⟨x, w1⟩
  rcases hr' : m' w' with ⟨x', w1'⟩
  rw [hr, hr'] at h1 h2
  simp only at h1 h2
  subst h1
  cases x with
  | ok a => exact hf a w1 w1' h2
  | error e => exact ⟨rfl, h2⟩

/-- Bind where only results satisfying a fact about the left run matter. -/
theorem Sim.bind' {α β} {m m' : EvalM α} {f f' : α → EvalM β} (hm : Sim L re m m')
    (hf : ∀ a w, (m w).1 = .ok a → Sim L re (f a) (f' a)) : Sim L re (m >>= f) (m' >>= f') := by
  intro w w' h
  obtain ⟨h1, h2⟩ := hm w w' h
  rw [run_bind, run_bind]
  rcases hr : m w with ⟨x, w1⟩
  rcases hr' : m' w' with ⟨x', w1'⟩
  rw [hr, hr'] at h1 h2
  simp only at h1 h2
  subst h1
  cases x with
  | ok a => exact hf a w (by rw [hr]) w1 w1' h2
  | error e => exact ⟨rfl, h2⟩

theorem Sim.catchAll {m m' : EvalM Decision} (h : Sim L re m m') :
    Sim L re (catchAll m) (catchAll m') := by
  intro w w' hR
  obtain ⟨h1, h2⟩ := h w w' hR
  unfold Xacml.catchAll
  rcases hr : m w with ⟨x, w1⟩
  rcases hr' : m' w' with ⟨x', w1'⟩
  rw [hr, hr'] at h1 h2
  simp only at h1 h2
  subst h1
  cases x <;> exact ⟨rfl, h2⟩

theorem coh_cons {w : World} {p m} (h : Coh re w) (hm : re p = .ok m) :
    Coh re { w with cache := (p, m) :: w.cache } := by
  intro q n hq
  simp only [List.lookup_cons] at hq
  split at hq
  · rename_i he
    have : q = p := by simpa using he
    subst this
    injection hq with hq; subst hq; exact hm
  · exact h q n hq

theorem getRegex_coh (env : Env) (p : String) (w : World) (h : Coh env.re w) :
    (getRegex env p w).1 = env.re p ∧ Coh env.re (getRegex env p w).2 ∧
      (getRegex env p w).2.pipLog = w.pipLog := by
  unfold getRegex
  cases hc : w.cache.lookup p with
  | some m => exact ⟨(h p m hc).symm, h, rfl⟩
  | none =>
    cases hr : env.re p with
    | ok m => exact ⟨rfl, coh_cons h hr, rfl⟩
    | error e => exact ⟨rfl, h, rfl⟩

theorem Sim.getRegex (env env' : Env) (h : env.re = re) (h' : env'.re = re) (p : String) :
    Sim L re (getRegex env p) (getRegex env' p) := by
  intro w w' ⟨hw, hw', hl⟩
  subst h
  obtain ⟨h1, h2, h3⟩ := getRegex_coh env p w hw
  obtain ⟨h1', h2', h3'⟩ := getRegex_coh env' p w' (by rw [h']; exact hw')
  refine ⟨by rw [h1, h1', h'], h2, by rw [h'] at h2'; exact h2', by rw [h3, h3']; exact hl⟩

theorem Sim.func (env env' : Env) (h : env.re = re) (h' : env'.re = re) (f : Func) (args : List PyVal) :
    Sim L re (f.evaluate env args) (f.evaluate env' args) := by
  cases f <;> try exact Sim.ofExcept _
  rename_i t
  show Sim L re (regexpMatchFn env t args) (regexpMatchFn env' t args)
  unfold regexpMatchFn
  split
  · split
    · split
      · split
        · split
          · refine Sim.bind (Sim.getRegex env env' h h' _) fun m => ?_
            split
            · exact Sim.pure _
            · exact Sim.throw _
          · exact Sim.throw _
        · exact Sim.throw _
      · exact Sim.throw _
    · exact Sim.throw _
  · exact Sim.throw _

theorem Sim.collectSubjects (r : Request) (hp : PipOK L (some r)) (d : Designator) (b : Bag)
    (ss : List CtxSubject) : Sim L re (collectSubjects r d b ss) (collectSubjects r d b ss) := by
  induction ss generalizing b with
  | nil => exact Sim.pure _
  | cons s ss ih =>
    unfold Xacml.collectSubjects
    refine Sim.bind (Sim.ofExcept _) fun b => ?_
    cases hc : r.ctxHandler with
    | none => exact ih b
    | some pip =>
      refine Sim.bind ?_ fun ans => Sim.bind (Sim.ofExcept _) fun b => ih b
      intro w w' ⟨hw, hw', hl⟩
      obtain ⟨h1, h2⟩ := hp r rfl pip hc w.pipLog w'.pipLog ⟨r.data, d⟩ hl
      exact ⟨h1, hw, hw', h2⟩

theorem Sim.designator (env env' : Env) (hm : env.classMap = env'.classMap) (cat : Category)
    (d : Designator) (ctx : Ctx) (hp : PipOK L ctx) :
    Sim L re (designatorEval env cat d ctx) (designatorEval env' cat d ctx) := by
  unfold designatorEval
  cases ctx with
  | none => exact Sim.throw _
  | some r =>
    simp only [hm]
    cases cat with
    | subject => exact Sim.bind (Sim.collectSubjects r hp d _ _) fun b => Sim.ofExcept _
    | resource => exact Sim.bind (Sim.ofExcept _) fun b => Sim.ofExcept _
    | action =>
      simp only
      split
      · exact Sim.throw _
      · exact Sim.bind (Sim.ofExcept _) fun b => Sim.ofExcept _
    | environment =>
      simp only
      split
      · exact Sim.throw _
      · exact Sim.bind (Sim.ofExcept _) fun b => Sim.ofExcept _

theorem selectorEval_env (env env' : Env) (hm : env.classMap = env'.classMap) (s : Selector) (ctx : Ctx) :
    selectorEval env s ctx = selectorEval env' s ctx := by
  unfold selectorEval
  rw [hm]

/-- The environments agree on everything but the logging level. -/
structure EnvOK (re : String → Except Exc (String → Bool)) (env env' : Env) : Prop where
  left : env.re = re
  right : env'.re = re
  classes : env.classMap = env'.classMap

mutual
theorem Sim.expr {env env' : Env} (he : EnvOK re env env') {ctx : Ctx} (hp : PipOK L ctx) :
    (e : Expr) → Sim L re (e.evaluate env ctx) (e.evaluate env' ctx)
  | .value v => by unfold Expr.evaluate; exact Sim.pure _
  | .designator cat d => by unfold Expr.evaluate; exact Sim.designator env env' he.classes cat d ctx hp
  | .selector s => by
    unfold Expr.evaluate; rw [selectorEval_env env env' he.classes]; exact Sim.ofExcept _
  | .apply fn args => by
    unfold Expr.evaluate
    refine Sim.bind (Sim.exprs he hp args) fun vs => ?_
    cases fn with
    | none => exact Sim.throw _
    | some f => exact Sim.func env env' he.left he.right f vs
theorem Sim.exprs {env env' : Env} (he : EnvOK re env env') {ctx : Ctx} (hp : PipOK L ctx) :
    (es : List Expr) → Sim L re (Expr.evaluateList env ctx es) (Expr.evaluateList env' ctx es)
  | [] => by unfold Expr.evaluateList; exact Sim.pure _
  | e :: es => by
    unfold Expr.evaluateList
    exact Sim.bind (Sim.expr he hp e) fun v => Sim.bind (Sim.exprs he hp es) fun vs => Sim.pure _
end

/-- Logging levels agree or the match function never returns an attribute value. -/
def DebugOK (env env' : Env) (m : Match) : Prop := env.debug = env'.debug ∨ Spec.Match.Quiet m

theorem Sim.matchOne {env env' : Env} (he : EnvOK re env env') (m : Match) (hd : DebugOK env env' m)
    (v : AttrVal) : Sim L re (matchOne env m v) (matchOne env' m v) := by
  unfold Xacml.matchOne
  cases hf : m.func with
  | none => exact fun _ _ h => ⟨rfl, h⟩
  | some f =>
    refine Sim.bind' (Sim.func env env' he.left he.right f _) fun x w hx => Sim.bind ?_ fun _ => Sim.pure _
    rcases hd with h | h
    · rw [h]; exact Sim.ofExcept _
    · have : ∀ b, debugCheck b x = .ok () := by
        intro b
        cases x with
        | av v => exact absurd hx (h f hf env _ w v)
        | _ => cases b <;> rfl
      rw [this, this]; exact Sim.ofExcept _

theorem Sim.matchLoop {env env' : Env} (he : EnvOK re env env') (m : Match) (hd : DebugOK env env' m)
    (vs : List AttrVal) : Sim L re (matchLoop env m vs) (matchLoop env' m vs) := by
  induction vs with
  | nil => exact Sim.pure _
  | cons v vs ih =>
    unfold Xacml.matchLoop
    exact Sim.bind (Sim.matchOne he m hd v) fun x => Sim.bind ih fun xs => Sim.pure _

theorem Sim.matchEval {env env' : Env} (he : EnvOK re env env') {ctx : Ctx} (hp : PipOK L ctx) (m : Match)
    (hd : DebugOK env env' m) : Sim L re (m.evaluate env ctx) (m.evaluate env' ctx) := by
  unfold Match.evaluate
  refine Sim.bind ?_ fun vals => ?_
  · unfold Match.requestValues
    split
    · exact Sim.designator env env' he.classes _ _ ctx hp
    · split
      · rw [selectorEval_env env env' he.classes]; exact Sim.ofExcept _
      · exact Sim.throw _
  · split
    · exact Sim.bind (Sim.matchLoop he m hd _) fun xs => Sim.pure _
    · exact Sim.throw _

theorem Sim.evalMatches {env env' : Env} (he : EnvOK re env env') {ctx : Ctx} (hp : PipOK L ctx)
    (ms : List Match) (hd : ∀ m ∈ ms, DebugOK env env' m) :
    Sim L re (evalMatches env ctx ms) (evalMatches env' ctx ms) := by
  induction ms with
  | nil => exact Sim.pure _
  | cons m ms ih =>
    unfold Xacml.evalMatches
    exact Sim.bind (Sim.matchEval he hp m (hd m (by simp))) fun b =>
      Sim.bind (ih fun m hm => hd m (by simp [hm])) fun bs => Sim.pure _

theorem Sim.matchSection {env env' : Env} (he : EnvOK re env env') {ctx : Ctx} (hp : PipOK L ctx)
    (cs : List TargetChild) (hd : ∀ c ∈ cs, ∀ m ∈ c.matches_, DebugOK env env' m) :
    Sim L re (matchSection env ctx cs) (matchSection env' ctx cs) := by
  unfold Xacml.matchSection
  split
  · exact Sim.pure _
  · generalize false = st
    induction cs generalizing st with
    | nil => exact Sim.pure _
    | cons c cs ih =>
      unfold Xacml.sectionLoop
      refine Sim.bind ?_ fun b => ?_
      · unfold Xacml.matchChild
        exact Sim.bind (Sim.evalMatches he hp _ (hd c (by simp))) fun bs => Sim.pure _
      · cases cs with
        | nil => exact Sim.pure _
        | cons c' cs' => exact ih (fun c hc => hd c (by simp [hc])) (by simp) _

theorem Sim.targetMatch {env env' : Env} (he : EnvOK re env env') {ctx : Ctx} (hp : PipOK L ctx)
    (t : Option Target) (hd : ∀ m ∈ optMatches t, DebugOK env env' m) :
    Sim L re (targetMatch env t ctx) (targetMatch env' t ctx) := by
  cases t with
  | none => exact Sim.pure _
  | some t =>
    have hd : ∀ c ∈ t.subjects ++ t.resources ++ t.actions ++ t.environments, ∀ m ∈ c.matches_,
        DebugOK env env' m := by
      intro c hc m hm
      exact hd m (by
        simp only [optMatches, Option.map_some, Option.getD_some, Spec.Target.allMatches]
        exact List.mem_flatMap.2 ⟨c, hc, hm⟩)
    show Sim L re (t.match_ env ctx) (t.match_ env' ctx)
    unfold Target.match_
    refine Sim.bind (Sim.matchSection he hp _ fun c hc => hd c (by simp [hc])) fun _ => ?_
    refine Sim.bind (Sim.matchSection he hp _ fun c hc => hd c (by simp [hc])) fun _ => ?_
    refine Sim.bind (Sim.matchSection he hp _ fun c hc => hd c (by simp [hc])) fun _ => ?_
    exact Sim.bind (Sim.matchSection he hp _ fun c hc => hd c (by simp [hc])) fun _ => Sim.pure _

theorem Sim.rule {env env' : Env} (he : EnvOK re env env') {ctx : Ctx} (hp : PipOK L ctx)
    (r : Rule) (hd : ∀ m ∈ optMatches r.target, DebugOK env env' m) :
    Sim L re (r.evaluate env ctx) (r.evaluate env' ctx) := by
  unfold Rule.evaluate
  refine Sim.catchAll ?_
  unfold Rule.body
  refine Sim.bind (Sim.targetMatch he hp _ hd) fun tm => ?_
  split
  · exact Sim.pure _
  · have tail : ∀ st : PyVal, Sim L re
        (if st.truthy = true then
          match r.effect with
          | some e => Pure.pure e.toDecision
          | none => EvalM.throw Exc.attributeError
        else Pure.pure Decision.notApplicable)
        (if st.truthy = true then
          match r.effect with
          | some e => Pure.pure e.toDecision
          | none => EvalM.throw Exc.attributeError
        else Pure.pure Decision.notApplicable) := by
      intro st
      split
      · split
        · exact Sim.pure _
        · exact Sim.throw _
      · exact Sim.pure _
    cases hc : r.condition with
    | none => exact Sim.bind (Sim.pure _) tail
    | some c =>
      refine Sim.bind ?_ tail
      unfold Condition.evaluate
      split
      · exact Sim.expr he hp _
      · exact Sim.throw _

/-- Pointwise related children. -/
inductive SimList (L : List PipQuery → List PipQuery → Prop) (re : String → Except Exc (String → Bool)) :
    List (EvalM Decision) → List (EvalM Decision) → Prop
  | nil : SimList L re [] []
  | cons {m m' ms ms'} : Sim L re m m' → SimList L re ms ms' → SimList L re (m :: ms) (m' :: ms')

inductive SimRules (L : List PipQuery → List PipQuery → Prop) (re : String → Except Exc (String → Bool)) :
    List RuleChild → List RuleChild → Prop
  | nil : SimRules L re [] []
  | cons {c c' cs cs'} : c.effect = c'.effect → Sim L re c.run c'.run → SimRules L re cs cs' →
      SimRules L re (c :: cs) (c' :: cs')

theorem SimRules.runs {cs cs'} (h : SimRules L re cs cs') :
    SimList L re (cs.map RuleChild.run) (cs'.map RuleChild.run) := by
  induction h with
  | nil => exact .nil
  | cons _ h _ ih => exact .cons h ih

theorem Sim.firstApplicable {ms ms'} (h : SimList L re ms ms') :
    Sim L re (firstApplicable ms) (firstApplicable ms') := by
  induction h with
  | nil => exact Sim.pure _
  | cons h _ ih =>
    unfold Xacml.firstApplicable
    refine Sim.bind h fun d => ?_
    cases d <;> first | exact Sim.pure _ | exact ih

theorem Sim.denyOverridesPolicies {ms ms'} (h : SimList L re ms ms') (b : Bool) :
    Sim L re (denyOverridesPolicies b ms) (denyOverridesPolicies b ms') := by
  induction h generalizing b with
  | nil => cases b <;> exact Sim.pure _
  | cons h _ ih =>
    unfold Xacml.denyOverridesPolicies
    refine Sim.bind h fun d => ?_
    cases d <;> first | exact Sim.pure _ | exact ih _

theorem Sim.permitOverridesPolicies {ms ms'} (h : SimList L re ms ms') (a b : Bool) :
    Sim L re (permitOverridesPolicies a b ms) (permitOverridesPolicies a b ms') := by
  induction h generalizing a b with
  | nil => cases a <;> cases b <;> exact Sim.pure _
  | cons h _ ih =>
    unfold Xacml.permitOverridesPolicies
    refine Sim.bind h fun d => ?_
    cases d <;> first | exact Sim.pure _ | exact ih _ _

theorem Sim.denyOverridesRules {cs cs'} (h : SimRules L re cs cs') (f : Flags) :
    Sim L re (denyOverridesRules f cs) (denyOverridesRules f cs') := by
  induction h generalizing f with
  | nil =>
    unfold Xacml.denyOverridesRules
    split
    · exact Sim.pure _
    · split
      · exact Sim.pure _
      · split <;> exact Sim.pure _
  | cons he h _ ih =>
    unfold Xacml.denyOverridesRules
    refine Sim.bind h fun d => ?_
    rw [he]
    cases d with
    | deny => exact Sim.pure _
    | permit => exact ih _
    | notApplicable => exact ih _
    | indeterminate =>
      simp only
      split
      · exact Sim.throw _
      · exact ih _
      · exact ih _

theorem Sim.permitOverridesRules {cs cs'} (h : SimRules L re cs cs') (f : Flags) :
    Sim L re (permitOverridesRules f cs) (permitOverridesRules f cs') := by
  induction h generalizing f with
  | nil =>
    unfold Xacml.permitOverridesRules
    split
    · exact Sim.pure _
    · split
      · exact Sim.pure _
      · split <;> exact Sim.pure _
  | cons he h _ ih =>
    unfold Xacml.permitOverridesRules
    refine Sim.bind h fun d => ?_
    rw [he]
    cases d with
    | permit => exact Sim.pure _
    | deny => exact ih _
    | notApplicable => exact ih _
    | indeterminate =>
      simp only
      split
      · exact Sim.throw _
      · exact ih _
      · exact ih _

theorem Sim.combineRules {cs cs'} (h : SimRules L re cs cs') (alg : Option Alg) :
    Sim L re (combineRules alg cs) (combineRules alg cs') := by
  unfold Xacml.combineRules
  split
  · exact Sim.throw _
  · exact Sim.denyOverridesRules h _
  · exact Sim.permitOverridesRules h _
  · exact Sim.firstApplicable h.runs

theorem Sim.combinePolicies {ms ms'} (h : SimList L re ms ms') (alg : Option Alg) :
    Sim L re (combinePolicies alg ms) (combinePolicies alg ms') := by
  unfold Xacml.combinePolicies
  split
  · exact Sim.throw _
  · exact Sim.denyOverridesPolicies h _
  · exact Sim.permitOverridesPolicies h _ _
  · exact Sim.firstApplicable h

theorem Sim.policyBase {env env' : Env} (he : EnvOK re env env') {ctx : Ctx} (hp : PipOK L ctx)
    (hdr : Header) (hd : ∀ m ∈ optMatches hdr.target, DebugOK env env' m) {c c' : EvalM Decision}
    (hc : Sim L re c c') :
    Sim L re (policyBaseEvaluate env hdr ctx c) (policyBaseEvaluate env' hdr ctx c') := by
  unfold policyBaseEvaluate
  refine Sim.catchAll (Sim.bind (Sim.targetMatch he hp _ hd) fun tm => ?_)
  split
  · exact Sim.pure _
  · exact hc

theorem Sim.rules {env env' : Env} (he : EnvOK re env env') {ctx : Ctx} (hp : PipOK L ctx)
    (rules : List Rule) (hd : ∀ r ∈ rules, ∀ m ∈ optMatches r.target, DebugOK env env' m) :
    SimRules L re (rules.map (Rule.child env ctx)) (rules.map (Rule.child env' ctx)) := by
  induction rules with
  | nil => exact .nil
  | cons r rs ih =>
    exact .cons rfl (Sim.rule he hp r (hd r (by simp))) (ih fun r hr => hd r (by simp [hr]))

mutual
theorem Sim.policy {env env' : Env} (he : EnvOK re env env') {ctx : Ctx} (hp : PipOK L ctx) :
    (p : PolicyNode) → (∀ m ∈ policyMatches p, DebugOK env env' m) →
      Sim L re (p.evaluate env ctx) (p.evaluate env' ctx)
  | .policy hdr rules, hd => by
    unfold PolicyNode.evaluate
    unfold policyMatches at hd
    refine Sim.policyBase he hp hdr (fun m hm => hd m (by simp [hm])) (Sim.combineRules ?_ _)
    exact Sim.rules he hp rules fun r hr m hm =>
      hd m (List.mem_append_right _ (List.mem_flatMap.2 ⟨r, hr, hm⟩))
  | .policySet hdr ps, hd => by
    unfold PolicyNode.evaluate
    unfold policyMatches at hd
    exact Sim.policyBase he hp hdr (fun m hm => hd m (by simp [hm]))
      (Sim.combinePolicies (Sim.policies he hp ps fun m hm => hd m (by simp [hm])) _)
theorem Sim.policies {env env' : Env} (he : EnvOK re env env') {ctx : Ctx} (hp : PipOK L ctx) :
    (ps : List PolicyNode) → (∀ m ∈ policiesMatches ps, DebugOK env env' m) →
      SimList L re (PolicyNode.evaluators env ctx ps) (PolicyNode.evaluators env' ctx ps)
  | [], _ => by unfold PolicyNode.evaluators; exact .nil
  | p :: ps, hd => by
    unfold PolicyNode.evaluators
    unfold policiesMatches at hd
    exact .cons (Sim.policy he hp p fun m hm => hd m (by simp [hm]))
      (Sim.policies he hp ps fun m hm => hd m (by simp [hm]))
end

theorem Sim.pdp {env env' : Env} {ctx : Ctx} {p p' : PolicyNode}
    (h : Sim L re (p.evaluate env ctx) (p'.evaluate env' ctx)) :
    Sim L re (pdpEvaluate env (some p) ctx) (pdpEvaluate env' (some p') ctx) := by
  intro w w' hR
  obtain ⟨h1, h2⟩ := h w w' hR
  unfold pdpEvaluate PolicyNode.evaluateResponse
  simp only
  rcases hr : p.evaluate env ctx w with ⟨x, w1⟩
  rcases hr' : p'.evaluate env' ctx w' with ⟨x', w1'⟩
  rw [hr, hr'] at h1 h2
  simp only at h1 h2
  subst h1
  cases x with
  | ok d => exact ⟨rfl, h2⟩
  | error e => simp only; split <;> exact ⟨rfl, h2⟩

/-- Logs are irrelevant to a stateless PIP. -/
theorem pipOK_stateless {ctx : Ctx} (h : StatelessPip ctx) : PipOK (fun _ _ => True) ctx :=
  fun r hr pip hp l l' q _ => ⟨h r hr pip hp l l' q, trivial⟩

theorem pipOK_eq (ctx : Ctx) : PipOK Eq ctx := by
  intro r _ pip _ l l' q h; subst h; exact ⟨rfl, rfl⟩

theorem envOK_refl (env : Env) : EnvOK env.re env env := ⟨rfl, rfl, rfl⟩

theorem debugOK_refl (env : Env) (m : Match) : DebugOK env env m := .inl rfl

theorem history_coh {w : World} (h : History re w) : Coh re w := by
  have rel : ∀ {w}, Coh re w → Rel Eq re w w := fun h => ⟨h, h, rfl⟩
  induction h with
  | start => intro p m h; simp [start] at h
  | pdp env policy ctx he _ ih =>
    subst he
    cases policy with
    | none => exact ih
    | some p =>
      exact (Sim.pdp (Sim.policy (envOK_refl env) (pipOK_eq ctx) p fun m _ => debugOK_refl env m) _ _ (rel ih)).2.1
  | expr env e ctx he _ ih =>
    subst he
    exact (Sim.expr (envOK_refl env) (pipOK_eq ctx) e _ _ (rel ih)).2.1
  | call env f args he _ ih =>
    subst he
    exact (Sim.func env env rfl rfl f args _ _ (rel ih)).2.1

end Xacml
