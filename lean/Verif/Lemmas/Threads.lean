import Verif.Model.Threads
import Verif.Lemmas.Sim
import Verif.Spec.Threads

/-! Threads compute what the sequential evaluator computes, whatever other threads do. -/
namespace Xacml
open Spec

/-- What a thread relies on: the regular expressions, and the classes for the data types it asks for. -/
structure Ground where
  re : String → Except Exc (String → Bool)
  classMap : List (String × AVClass)
  asked : String → Prop

/-- The classes are those relied on. -/
def Ground.Classes (g : Ground) (s : Shared) : Prop := ∀ dt, g.asked dt → s.classMap.lookup dt = g.classMap.lookup dt

/-- All data types that these readings ask for are relied on. -/
def Ground.Covers (g : Ground) (P : Reading → Prop) : Prop := ∀ l, P l → ∀ dt, l.asksFor dt → g.asked dt

/-- The evaluator uses what is relied on. -/
structure Fits (env : Env) (g : Ground) : Prop where
  re : env.re = g.re
  classMap : env.classMap = g.classMap

/-- Whatever coherent states other threads leave before each step, the result is `x`; and every
step keeps the state coherent and the policy and the classes unchanged. -/
def Prog.Always {α} (g : Ground) (x : Except Exc α) : Thread α → Prop
  | .done y => y = x
  | .act f k => ∀ s, Coh g.re s.world → g.Classes s → Coh g.re (f s).world ∧
      ((f s).policy = s.policy ∧ (f s).classMap = s.classMap) ∧ Prog.Always g x (k s)

variable {g : Ground}

theorem Prog.Always.runAlone {α} {x : Except Exc α} {t : Thread α} (h : t.Always g x) {s : Shared}
    (hs : Coh g.re s.world) (hc : g.Classes s) : (t.runAlone s).1 = x := by
  induction t generalizing s with
  | done y => exact h
  | act f k ih =>
    obtain ⟨h1, h2, h3⟩ := h s hs hc
    exact ih s h3 h1 (fun dt hd => by rw [h2.2]; exact hc dt hd)

/-- `t` is `m` cut into steps, and its result does not depend on the other threads. -/
structure Impl (g : Ground) {α} (t : Thread α) (m : EvalM α) : Prop where
  alone : ∀ s, g.Classes s → t.runAlone s = ((m s.world).1, { s with world := (m s.world).2 })
  always : ∃ x, t.Always g x

theorem bindT {α β} (t : Thread α) (f : α → Thread β) : t >>= f = Prog.bind f t := rfl

theorem Prog.Always.bind_ok {α β} {a : α} {y : Except Exc β} {t : Thread α} {f : α → Thread β}
    (h : t.Always g (.ok a)) (hf : (f a).Always g y) : (t >>= f).Always g y := by
  rw [bindT]
  induction t with
  | done z => cases (show z = .ok a from h); exact hf
  | act g k ih => exact fun s hs hc => ⟨(h s hs hc).1, (h s hs hc).2.1, ih s (h s hs hc).2.2⟩

theorem Prog.Always.bind_error {α β} {e : Exc} {t : Thread α} {f : α → Thread β}
    (h : t.Always g (.error e)) : (t >>= f).Always g (.error e) := by
  rw [bindT]
  induction t with
  | done z => cases (show z = .error e from h); rfl
  | act g k ih => exact fun s hs hc => ⟨(h s hs hc).1, (h s hs hc).2.1, ih s (h s hs hc).2.2⟩

theorem runAlone_bind {α β} (t : Thread α) (f : α → Thread β) (s : Shared) :
    (t >>= f).runAlone s = match t.runAlone s with
      | (.ok a, s') => (f a).runAlone s'
      | (.error e, s') => (.error e, s') := by
  rw [bindT]
  induction t generalizing s with
  | done z => cases z <;> rfl
  | act g k ih => exact ih s (g s)

theorem runAlone_handle {α} (t : Thread α) (h : Exc → Thread α) (s : Shared) :
    (t.handle h).runAlone s = match t.runAlone s with
      | (.ok a, s') => (.ok a, s')
      | (.error e, s') => (h e).runAlone s' := by
  induction t generalizing s with
  | done z => cases z <;> rfl
  | act g k ih => exact ih s (g s)

theorem Prog.Always.handle_ok {α} {a : α} {t : Thread α} {f : Exc → Thread α}
    (h : t.Always g (.ok a)) : (t.handle f).Always g (.ok a) := by
  induction t with
  | done z => cases (show z = .ok a from h); rfl
  | act g k ih => exact fun s hs hc => ⟨(h s hs hc).1, (h s hs hc).2.1, ih s (h s hs hc).2.2⟩

theorem Prog.Always.handle_error {α} {e : Exc} {y} {t : Thread α} {f : Exc → Thread α}
    (h : t.Always g (.error e)) (hf : (f e).Always g y) : (t.handle f).Always g y := by
  induction t with
  | done z => cases (show z = .error e from h); exact hf
  | act g k ih => exact fun s hs hc => ⟨(h s hs hc).1, (h s hs hc).2.1, ih s (h s hs hc).2.2⟩

namespace Impl

theorem pure {α} (a : α) : Impl g (Pure.pure a) (Pure.pure a) := ⟨fun _ _ => rfl, _, rfl⟩
theorem throw {α} (e : Exc) : Impl g (Prog.throw (α := α) e) (EvalM.throw e) := ⟨fun _ _ => rfl, _, rfl⟩
theorem ofExcept {α} (x : Except Exc α) : Impl g (Prog.ofExcept x) (EvalM.ofExcept x) :=
  ⟨fun _ _ => rfl, _, rfl⟩

theorem bind {α β} {t : Thread α} {m : EvalM α} {f : α → Thread β} {q : α → EvalM β}
    (h : Impl g t m) (hf : ∀ a, Impl g (f a) (q a)) : Impl g (t >>= f) (m >>= q) := by
  constructor
  · intro s hc
    rw [runAlone_bind, h.alone s hc, run_bind]
    rcases m s.world with ⟨x | a, w⟩
    · rfl
    · exact (hf a).alone _ hc
  · obtain ⟨x, hx⟩ := h.always
    cases x with
    | error e => exact ⟨_, hx.bind_error⟩
    | ok a => obtain ⟨y, hy⟩ := (hf a).always; exact ⟨y, hx.bind_ok hy⟩

theorem catchAll {t : Thread Decision} {m : EvalM Decision} (h : Impl g t m) :
    Impl g (catchAllT t) (catchAll m) := by
  constructor
  · intro s hc
    unfold catchAllT Xacml.catchAll
    rw [runAlone_handle, h.alone s hc]
    rcases m s.world with ⟨x | a, w⟩ <;> rfl
  · obtain ⟨x, hx⟩ := h.always
    cases x with
    | error e => exact ⟨.ok .indeterminate, hx.handle_error (by unfold Prog.Always; rfl)⟩
    | ok a => exact ⟨_, hx.handle_ok⟩

theorem getRegex (env : Env) (h : Fits env g) (p : String) : Impl g (getRegexT env p) (getRegex env p) := by
  constructor
  · intro s _
    unfold getRegexT Xacml.getRegex
    rw [runAlone_bind]
    simp only [Prog.read, Prog.runAlone, id]
    cases s.world.cache.lookup p with
    | some m => rfl
    | none => cases env.re p <;> rfl
  · refine ⟨g.re p, fun s hs _ => ⟨hs, ⟨rfl, rfl⟩, ?_⟩⟩
    simp only [Prog.bind]
    cases hl : s.world.cache.lookup p with
    | some m => exact (hs p m hl).symm
    | none =>
      simp only [h.re]
      cases hr : g.re p with
      | error e => rfl
      | ok m => exact fun s' hs' _ => ⟨coh_cons hs' hr, ⟨rfl, rfl⟩, rfl⟩

theorem func (env : Env) (h : Fits env g) (f : Func) (args : List PyVal) :
    Impl g (f.evaluateT env args) (f.evaluate env args) := by
  cases f <;> try exact ofExcept _
  rename_i t
  show Impl g (regexpMatchFnT env t args) (regexpMatchFn env t args)
  unfold regexpMatchFnT regexpMatchFn
  rcases args with _ | ⟨a, _ | ⟨b, _ | ⟨c, l⟩⟩⟩
  · exact throw _
  · exact throw _
  · rcases a with p | _ | _ | _ | _ <;> try exact throw _
    rcases b with i | _ | _ | _ | _ <;> try exact throw _
    simp only
    by_cases hp : p.isInst t = true
    · by_cases hi : i.isInst t = true
      · simp only [hp, hi, if_true]
        rcases p.value with _ | v
        · exact throw _
        cases v <;> try exact throw _
        refine bind (getRegex env h _) fun m => ?_
        rcases i.value with _ | v
        · exact throw _
        cases v <;> first | exact throw _ | exact pure _
      · simp only [hp, hi, if_true]; exact throw _
    · simp only [hp]; exact throw _
  · exact throw _

theorem collectSubjects (r : Request) (hp : StatelessPip (some r)) (d : Designator) (b : Bag)
    (ss : List CtxSubject) : Impl g (collectSubjectsT r d b ss) (collectSubjects r d b ss) := by
  induction ss generalizing b with
  | nil => exact pure _
  | cons s ss ih =>
    unfold collectSubjectsT Xacml.collectSubjects
    refine bind (ofExcept _) fun b => ?_
    cases hc : r.ctxHandler with
    | none => exact ih b
    | some pip =>
      refine bind ?_ fun ans => bind (ofExcept _) fun b => ih b
      exact ⟨fun s _ => rfl, pip [] ⟨r.data, d⟩, fun s hs _ => ⟨hs, ⟨rfl, rfl⟩, hp r rfl pip hc _ _ _⟩⟩

theorem classLookup {env : Env} (he : Fits env g) (o : Option String) (ho : ∀ dt, o = some dt → g.asked dt) :
    Impl g (classLookupT o) (Pure.pure (Xacml.classLookup env.classMap o)) := by
  have key : ∀ s, g.Classes s → Xacml.classLookup s.classMap o = Xacml.classLookup env.classMap o := by
    intro s hs
    cases o with
    | none => rfl
    | some dt =>
      show s.classMap.lookup dt = env.classMap.lookup dt
      rw [hs dt (ho dt rfl), he.classMap]
  refine ⟨fun s hs => ?_, .ok (Xacml.classLookup env.classMap o), fun s hc hs => ⟨hc, ⟨rfl, rfl⟩, ?_⟩⟩
  · show (Except.ok (Xacml.classLookup s.classMap o), s) = _
    rw [key s hs]; rfl
  · show Except.ok (Xacml.classLookup s.classMap o) = _
    rw [key s hs]

theorem designator {env : Env} (he : Fits env g) (cat : Category) (d : Designator) (hd : ∀ dt, d.dataType = some dt → g.asked dt)
    (ctx : Ctx) (hp : StatelessPip ctx) :
    Impl g (designatorEvalT cat d ctx) (designatorEval env cat d ctx) := by
  unfold designatorEvalT designatorEval
  cases ctx with
  | none => exact throw _
  | some r =>
    cases cat with
    | subject => exact bind (classLookup he _ hd) fun c => bind (collectSubjects r hp d _ _) fun b => ofExcept _
    | resource => exact bind (classLookup he _ hd) fun c => bind (ofExcept _) fun b => ofExcept _
    | action =>
      simp only
      rcases r.data.action with _ | as
      · exact bind (classLookup he _ hd) fun c => throw _
      · exact bind (classLookup he _ hd) fun c => bind (ofExcept _) fun b => ofExcept _
    | environment =>
      simp only
      rcases r.data.environment with _ | as
      · exact bind (classLookup he _ hd) fun c => throw _
      · exact bind (classLookup he _ hd) fun c => bind (ofExcept _) fun b => ofExcept _

theorem selector {env : Env} (he : Fits env g) (sel : Selector) (hd : ∀ dt, sel.dataType = some dt → g.asked dt) (ctx : Ctx) :
    Impl g (selectorEvalT sel ctx) (EvalM.ofExcept (selectorEval env sel ctx)) := by
  unfold selectorEvalT selectorEval
  cases ctx with
  | none => exact throw _
  | some r =>
    simp only
    rcases r.attributeSelector with _ | xp
    · exact throw _
    simp only
    rcases hdt : sel.dataType with _ | dt
    · exact throw _
    simp only
    have h : Impl g (classLookupT (some dt) >>= fun cls => match cls with
        | none => Prog.throw .xmlParseError
        | some c =>
          match xp sel.path with
          | .error e => Prog.throw e
          | .ok texts =>
            match selectValues c dt texts with
            | .error e => Prog.throw e
            | .ok vs => Prog.ofExcept (checkPresent sel.mustBePresent { elementType := some c, items := vs }))
        (Pure.pure (Xacml.classLookup env.classMap (some dt)) >>= fun cls => EvalM.ofExcept (match cls with
        | none => .error .xmlParseError
        | some c =>
          match xp sel.path with
          | .error e => .error e
          | .ok texts =>
            match selectValues c dt texts with
            | .error e => .error e
            | .ok vs => checkPresent sel.mustBePresent { elementType := some c, items := vs })) := by
      refine bind (classLookup he _ fun x hx => hd x (by rw [hdt]; exact hx)) fun cls => ?_
      rcases cls with _ | c
      · exact throw _
      simp only
      rcases xp sel.path with e | texts
      · exact throw _
      simp only
      rcases selectValues c dt texts with e | vs
      · exact throw _
      · exact ofExcept _
    exact h

mutual
theorem expr {env : Env} (he : Fits env g) {ctx : Ctx} (hp : StatelessPip ctx) :
    (e : Expr) → g.Covers (fun l => InExpr l e) → Impl g (e.evaluateT env ctx) (e.evaluate env ctx)
  | .value v => fun _ => by unfold Expr.evaluateT Expr.evaluate; exact pure _
  | .designator cat d => fun ha => by
    unfold Expr.evaluateT Expr.evaluate
    exact designator he cat d (fun dt h => ha _ (.designator rfl) dt h) ctx hp
  | .selector s => fun ha => by
    unfold Expr.evaluateT Expr.evaluate
    exact selector he s (fun dt h => ha _ (.selector rfl) dt h) ctx
  | .apply fn args => fun ha => by
    unfold Expr.evaluateT Expr.evaluate
    refine bind (exprs he hp args fun l hl => ha l (let ⟨e, h1, h2⟩ := hl; .apply h1 h2)) fun vs => ?_
    cases fn with
    | none => exact throw _
    | some f => exact func env he f vs
theorem exprs {env : Env} (he : Fits env g) {ctx : Ctx} (hp : StatelessPip ctx) :
    (es : List Expr) → g.Covers (fun l => ∃ e ∈ es, InExpr l e) → Impl g (Expr.evaluateListT env ctx es) (Expr.evaluateList env ctx es)
  | [] => fun _ => by unfold Expr.evaluateListT Expr.evaluateList; exact pure _
  | e :: es => fun ha => by
    unfold Expr.evaluateListT Expr.evaluateList
    exact bind (expr he hp e fun l hl => ha l ⟨e, List.mem_cons_self .., hl⟩) fun v =>
      bind (exprs he hp es fun l hl => ha l (let ⟨e, h1, h2⟩ := hl; ⟨e, List.mem_cons_of_mem _ h1, h2⟩)) fun vs => pure _
end

theorem matchOne {env : Env} (he : Fits env g) (m : Match) (v : AttrVal) :
    Impl g (matchOneT env m v) (matchOne env m v) := by
  unfold matchOneT Xacml.matchOne
  cases hf : m.func with
  | none => exact bind (throw _) fun x => bind (ofExcept _) fun _ => pure _
  | some f => exact bind (func env he f _) fun x => bind (ofExcept _) fun _ => pure _

theorem matchLoop {env : Env} (he : Fits env g) (m : Match) (vs : List AttrVal) :
    Impl g (matchLoopT env m vs) (matchLoop env m vs) := by
  induction vs with
  | nil => exact pure _
  | cons v vs ih =>
    unfold matchLoopT Xacml.matchLoop
    exact bind (matchOne he m v) fun x => bind ih fun xs => pure _

theorem matchEval {env : Env} (he : Fits env g) {ctx : Ctx} (hp : StatelessPip ctx) (m : Match)
    (ha : g.Covers fun l => InMatch l m) :
    Impl g (m.evaluateT env ctx) (m.evaluate env ctx) := by
  unfold Match.evaluateT Match.evaluate
  refine bind ?_ fun vals => ?_
  · unfold Match.requestValuesT Match.requestValues
    rcases hd : m.designator with _ | ⟨cat, d⟩
    · rcases hs : m.selector with _ | s
      · exact throw _
      · exact selector he s (fun dt h => ha (.selector s) (.inr ⟨s, hs, rfl⟩) dt h) ctx
    · exact designator he _ _ (fun dt h => ha (.designator cat d) (.inl ⟨cat, d, hd, rfl⟩) dt h) ctx hp
  · cases vals with
    | bag b => exact bind (matchLoop he m _) fun xs => pure _
    | _ => exact throw _

theorem evalMatches {env : Env} (he : Fits env g) {ctx : Ctx} (hp : StatelessPip ctx) (ms : List Match)
    (ha : g.Covers fun l => ∃ m ∈ ms, InMatch l m) :
    Impl g (evalMatchesT env ctx ms) (evalMatches env ctx ms) := by
  induction ms with
  | nil => exact pure _
  | cons m ms ih =>
    unfold evalMatchesT Xacml.evalMatches
    exact bind (matchEval he hp m fun l hl => ha l ⟨m, List.mem_cons_self .., hl⟩) fun b =>
      bind (ih fun l ⟨m, h1, h2⟩ => ha l ⟨m, List.mem_cons_of_mem _ h1, h2⟩) fun bs => pure _

theorem sectionLoop {env : Env} (he : Fits env g) {ctx : Ctx} (hp : StatelessPip ctx) (st : Bool)
    (cs : List TargetChild) (ha : g.Covers fun l => ∃ c ∈ cs, ∃ m ∈ c.matches_, InMatch l m) :
    Impl g (sectionLoopT env ctx st cs) (sectionLoop env ctx st cs) := by
  induction cs generalizing st with
  | nil => exact pure _
  | cons c cs ih =>
    unfold sectionLoopT Xacml.sectionLoop
    refine bind ?_ fun b => ih _ fun l ⟨c, h1, h2⟩ => ha l ⟨c, List.mem_cons_of_mem _ h1, h2⟩
    unfold matchChildT Xacml.matchChild
    exact bind (evalMatches he hp _ fun l hl => ha l ⟨c, List.mem_cons_self .., hl⟩) fun bs => pure _

theorem matchSection {env : Env} (he : Fits env g) {ctx : Ctx} (hp : StatelessPip ctx)
    (cs : List TargetChild) (ha : g.Covers fun l => ∃ c ∈ cs, ∃ m ∈ c.matches_, InMatch l m) :
    Impl g (matchSectionT env ctx cs) (matchSection env ctx cs) := by
  unfold matchSectionT Xacml.matchSection
  split
  · exact pure _
  · exact sectionLoop he hp _ _ ha

theorem targetMatch {env : Env} (he : Fits env g) {ctx : Ctx} (hp : StatelessPip ctx) (t : Option Target)
    (ha : g.Covers fun l => InTarget l t) :
    Impl g (targetMatchT env t ctx) (targetMatch env t ctx) := by
  cases t with
  | none => exact pure _
  | some t =>
    show Impl g (t.matchT env ctx) (t.match_ env ctx)
    unfold Target.matchT Target.match_
    have hs : ∀ cs : List TargetChild, (∀ c ∈ cs, c ∈ t.subjects ++ t.resources ++ t.actions ++ t.environments) →
        g.Covers fun l => ∃ c ∈ cs, ∃ m ∈ c.matches_, InMatch l m :=
      fun cs h l ⟨c, h1, h2⟩ => ha l ⟨t, rfl, c, h c h1, h2⟩
    exact bind (matchSection he hp _ (hs _ fun c h => by simp [h])) fun _ =>
      bind (matchSection he hp _ (hs _ fun c h => by simp [h])) fun _ =>
      bind (matchSection he hp _ (hs _ fun c h => by simp [h])) fun _ =>
      bind (matchSection he hp _ (hs _ fun c h => by simp [h])) fun _ => pure _

theorem rule {env : Env} (he : Fits env g) {ctx : Ctx} (hp : StatelessPip ctx) (r : Rule)
    (ha : g.Covers fun l => InRule l r) :
    Impl g (r.evaluateT env ctx) (r.evaluate env ctx) := by
  unfold Rule.evaluateT Rule.evaluate
  refine catchAll ?_
  unfold Rule.bodyT Rule.body
  refine bind (targetMatch he hp _ fun l hl => ha l (.inl hl)) fun tm => ?_
  split
  · exact pure _
  · have tail : ∀ st : PyVal, Impl g
        (if st.truthy = true then
          match r.effect with
          | some e => Pure.pure e.toDecision
          | none => Prog.throw Exc.attributeError
        else Pure.pure Decision.notApplicable)
        (if st.truthy = true then
          match r.effect with
          | some e => Pure.pure e.toDecision
          | none => EvalM.throw Exc.attributeError
        else Pure.pure Decision.notApplicable) := by
      intro st
      split
      · split
        · exact pure _
        · exact throw _
      · exact pure _
    cases hc : r.condition with
    | none => exact bind (pure _) tail
    | some c =>
      refine bind ?_ tail
      unfold Condition.evaluateT Condition.evaluate
      rcases hx : c.expression with _ | e
      · exact throw _
      · exact expr he hp _ fun l hl => ha l (.inr ⟨c, e, hc, hx, hl⟩)

theorem denyRules {env : Env} {ctx : Ctx} (f : Flags) (rs : List Rule)
    (h : ∀ r ∈ rs, Impl g (r.evaluateT env ctx) (r.evaluate env ctx)) :
    Impl g (denyOverridesRulesT f (rs.map (Rule.childT env ctx))) (denyOverridesRules f (rs.map (Rule.child env ctx))) := by
  induction rs generalizing f with
  | nil =>
    simp only [List.map_nil, denyOverridesRulesT, denyOverridesRules]
    split
    · exact pure _
    · split
      · exact pure _
      · split <;> exact pure _
  | cons r rs ih =>
    simp only [List.map_cons, denyOverridesRulesT, denyOverridesRules]
    have ih := fun f => ih f fun r hr => h r (List.mem_cons_of_mem _ hr)
    refine bind (h r (List.mem_cons_self ..)) fun d => ?_
    cases d with
    | deny => exact pure _
    | permit => exact ih _
    | notApplicable => exact ih _
    | indeterminate =>
      show Impl g (match r.effect with
        | none => _ | some .deny => _ | some .permit => _) (match r.effect with
        | none => _ | some .deny => _ | some .permit => _)
      rcases r.effect with _ | (_ | _)
      · exact throw _
      · exact ih _
      · exact ih _

theorem permitRules {env : Env} {ctx : Ctx} (f : Flags) (rs : List Rule)
    (h : ∀ r ∈ rs, Impl g (r.evaluateT env ctx) (r.evaluate env ctx)) :
    Impl g (permitOverridesRulesT f (rs.map (Rule.childT env ctx))) (permitOverridesRules f (rs.map (Rule.child env ctx))) := by
  induction rs generalizing f with
  | nil =>
    simp only [List.map_nil, permitOverridesRulesT, permitOverridesRules]
    split
    · exact pure _
    · split
      · exact pure _
      · split <;> exact pure _
  | cons r rs ih =>
    simp only [List.map_cons, permitOverridesRulesT, permitOverridesRules]
    have ih := fun f => ih f fun r hr => h r (List.mem_cons_of_mem _ hr)
    refine bind (h r (List.mem_cons_self ..)) fun d => ?_
    cases d with
    | deny => exact ih _
    | permit => exact pure _
    | notApplicable => exact ih _
    | indeterminate =>
      show Impl g (match r.effect with
        | none => _ | some .permit => _ | some .deny => _) (match r.effect with
        | none => _ | some .permit => _ | some .deny => _)
      rcases r.effect with _ | (_ | _)
      · exact throw _
      · exact ih _
      · exact ih _

/-- Pointwise implementations. -/
inductive All (g : Ground) : List (Thread Decision) → List (EvalM Decision) → Prop
  | nil : All g [] []
  | cons {t m ts ms} : Impl g t m → All g ts ms → All g (t :: ts) (m :: ms)

theorem firstApplicable {ts : List (Thread Decision)} {ms : List (EvalM Decision)} (h : All g ts ms) :
    Impl g (firstApplicableT ts) (firstApplicable ms) := by
  induction h with
  | nil => exact pure _
  | cons h _ ih =>
    refine bind h fun d => ?_
    cases d with
    | notApplicable => exact ih
    | _ => exact pure _

theorem denyPolicies {ts : List (Thread Decision)} {ms : List (EvalM Decision)} (h : All g ts ms) (b : Bool) :
    Impl g (denyOverridesPoliciesT b ts) (denyOverridesPolicies b ms) := by
  induction h generalizing b with
  | nil => cases b <;> exact pure _
  | cons h _ ih =>
    refine bind h fun d => ?_
    cases d with
    | notApplicable => exact ih _
    | permit => exact ih _
    | _ => exact pure _

theorem permitPolicies {ts : List (Thread Decision)} {ms : List (EvalM Decision)} (h : All g ts ms) (b c : Bool) :
    Impl g (permitOverridesPoliciesT b c ts) (permitOverridesPolicies b c ms) := by
  induction h generalizing b c with
  | nil => cases b <;> cases c <;> exact pure _
  | cons h _ ih =>
    refine bind h fun d => ?_
    cases d with
    | permit => exact pure _
    | _ => exact ih _ _

theorem combineRules {env : Env} {ctx : Ctx} (alg : Option Alg) (rs : List Rule)
    (h : ∀ r ∈ rs, Impl g (r.evaluateT env ctx) (r.evaluate env ctx)) :
    Impl g (combineRulesT alg (rs.map (Rule.childT env ctx))) (combineRules alg (rs.map (Rule.child env ctx))) := by
  rcases alg with _ | (_ | _ | _)
  · exact throw _
  · exact denyRules _ _ h
  · exact permitRules _ _ h
  · refine firstApplicable ?_
    induction rs with
    | nil => exact .nil
    | cons r rs ih => exact .cons (h r (List.mem_cons_self ..)) (ih fun r hr => h r (List.mem_cons_of_mem _ hr))

theorem combinePolicies {ts : List (Thread Decision)} {ms : List (EvalM Decision)} (h : All g ts ms)
    (alg : Option Alg) : Impl g (combinePoliciesT alg ts) (combinePolicies alg ms) := by
  rcases alg with _ | (_ | _ | _)
  · exact throw _
  · exact denyPolicies h _
  · exact permitPolicies h _ _
  · exact firstApplicable h

theorem policyBase {env : Env} (he : Fits env g) {ctx : Ctx} (hp : StatelessPip ctx) (hdr : Header)
    (ha : g.Covers fun l => InTarget l hdr.target) {t : Thread Decision} {m : EvalM Decision} (h : Impl g t m) :
    Impl g (policyBaseEvaluateT env hdr ctx t) (policyBaseEvaluate env hdr ctx m) := by
  refine catchAll (bind (targetMatch he hp _ ha) fun tm => ?_)
  split
  · exact pure _
  · exact h

mutual
theorem policy {env : Env} (he : Fits env g) {ctx : Ctx} (hp : StatelessPip ctx) :
    (p : PolicyNode) → g.Covers (fun l => InPolicy l p) → Impl g (p.evaluateT env ctx) (p.evaluate env ctx)
  | .policy hdr rules => fun ha => by
    unfold PolicyNode.evaluateT PolicyNode.evaluate
    exact policyBase he hp hdr (fun l hl => ha l (.policyTarget hl))
      (combineRules _ _ fun r hr => rule he hp r fun l hl => ha l (.rule hr hl))
  | .policySet hdr ps => fun ha => by
    unfold PolicyNode.evaluateT PolicyNode.evaluate
    exact policyBase he hp hdr (fun l hl => ha l (.setTarget hl))
      (combinePolicies (policies he hp ps fun l hl => ha l (let ⟨_, h1, h2⟩ := hl; .child h1 h2)) _)
theorem policies {env : Env} (he : Fits env g) {ctx : Ctx} (hp : StatelessPip ctx) :
    (ps : List PolicyNode) → g.Covers (fun l => ∃ p ∈ ps, InPolicy l p) →
      All g (PolicyNode.evaluatorsT env ctx ps) (PolicyNode.evaluators env ctx ps)
  | [] => fun _ => by unfold PolicyNode.evaluatorsT PolicyNode.evaluators; exact .nil
  | p :: ps => fun ha => by
    unfold PolicyNode.evaluatorsT PolicyNode.evaluators
    exact .cons (policy he hp p fun l hl => ha l ⟨p, List.mem_cons_self .., hl⟩)
      (policies he hp ps fun l hl => ha l (let ⟨p, h1, h2⟩ := hl; ⟨p, List.mem_cons_of_mem _ h1, h2⟩))
end

theorem response {env : Env} (he : Fits env g) {ctx : Ctx} (hp : StatelessPip ctx) (p : PolicyNode)
    (ha : g.Covers fun l => InPolicy l p) :
    Impl g (p.evaluateResponseT env ctx) (p.evaluateResponse env ctx) := by
  have h := policy he hp p ha
  constructor
  · intro s hc
    unfold PolicyNode.evaluateResponseT PolicyNode.evaluateResponse
    rw [runAlone_handle, runAlone_bind, h.alone s hc]
    rcases p.evaluate env ctx s.world with ⟨e | a, w⟩
    · simp only
      split <;> rfl
    · rfl
  · obtain ⟨x, hx⟩ := h.always
    unfold PolicyNode.evaluateResponseT
    cases x with
    | error e =>
      by_cases hc : e.isContextError = true
      · exact ⟨.ok ⟨[Result.createInitialised .notApplicable]⟩,
          hx.bind_error.handle_error (by simp only [hc, if_true]; rfl)⟩
      · exact ⟨.error e, hx.bind_error.handle_error (by simp only [hc]; rfl)⟩
    | ok d => 
      exact ⟨.ok ⟨[{ Result.createInitialised .notApplicable with decision := d }]⟩,
        (hx.bind_ok (by unfold Prog.Always; rfl)).handle_ok⟩

end Impl

/-! ## Steps that do no harm, whatever classes are registered meanwhile -/

/-- Every step keeps the state coherent and the policy and the classes unchanged. -/
def Prog.Safe {α} (re : String → Except Exc (String → Bool)) : Thread α → Prop
  | .done _ => True
  | .act f k => ∀ s, Coh re s.world → Coh re (f s).world ∧
      ((f s).policy = s.policy ∧ (f s).classMap = s.classMap) ∧ Prog.Safe re (k s)

namespace Safe
variable {re : String → Except Exc (String → Bool)}
open Prog (Safe)

theorem pure {α} (a : α) : Safe re (Pure.pure a : Thread α) := trivial
theorem throw {α} (e : Exc) : Safe re (Prog.throw e : Thread α) := trivial
theorem ofExcept {α} (x : Except Exc α) : Safe re (Prog.ofExcept x : Thread α) := trivial

theorem bind {α β} {t : Thread α} {f : α → Thread β} (h : Safe re t) (hf : ∀ a, Safe re (f a)) : Safe re (t >>= f) := by
  rw [bindT]
  induction t with
  | done z => cases z with
    | ok a => exact hf a
    | error e => trivial
  | act g k ih => exact fun s hs => ⟨(h s hs).1, (h s hs).2.1, ih s (h s hs).2.2⟩

theorem handle {α} {t : Thread α} {f : Exc → Thread α} (h : Safe re t) (hf : ∀ e, Safe re (f e)) : Safe re (t.handle f) := by
  induction t with
  | done z => cases z with
    | ok a => trivial
    | error e => exact hf e
  | act g k ih => exact fun s hs => ⟨(h s hs).1, (h s hs).2.1, ih s (h s hs).2.2⟩

theorem read {α} (f : Shared → α) : Safe re (Prog.read f) := fun _ hs => ⟨hs, ⟨rfl, rfl⟩, trivial⟩

theorem getRegex {env : Env} (he : env.re = re) (p : String) : Safe re (getRegexT env p) := by
  refine bind (read _) fun o => ?_
  cases o with
  | some m => exact pure _
  | none =>
    simp only
    cases hr : env.re p with
    | error e => exact throw _
    | ok m => exact bind (fun s hs => ⟨coh_cons hs (he ▸ hr), ⟨rfl, rfl⟩, trivial⟩) fun _ => pure _

theorem func {env : Env} (he : env.re = re) (f : Func) (args : List PyVal) : Safe re (f.evaluateT env args) := by
  cases f <;> try exact ofExcept _
  rename_i t
  show Safe re (regexpMatchFnT env t args)
  unfold regexpMatchFnT
  rcases args with _ | ⟨a, _ | ⟨b, _ | ⟨c, l⟩⟩⟩
  · exact throw _
  · exact throw _
  · rcases a with p | _ | _ | _ | _ <;> try exact throw _
    rcases b with i | _ | _ | _ | _ <;> try exact throw _
    simp only
    by_cases hp : p.isInst t = true
    · by_cases hi : i.isInst t = true
      · simp only [hp, hi, if_true]
        rcases p.value with _ | v
        · exact throw _
        cases v <;> try exact throw _
        refine bind (getRegex he _) fun m => ?_
        rcases i.value with _ | v
        · exact throw _
        cases v <;> first | exact throw _ | exact pure _
      · simp only [hp, hi, if_true]; exact throw _
    · simp only [hp]; exact throw _
  · exact throw _

theorem collectSubjects (r : Request) (d : Designator) (b : Bag) (ss : List CtxSubject) : Safe re (collectSubjectsT r d b ss) := by
  induction ss generalizing b with
  | nil => exact pure _
  | cons s ss ih =>
    unfold collectSubjectsT
    refine bind (ofExcept _) fun b => ?_
    cases r.ctxHandler with
    | none => exact ih b
    | some pip =>
      refine bind ?_ fun ans => bind (ofExcept _) fun b => ih b
      exact fun s hs => ⟨hs, ⟨rfl, rfl⟩, trivial⟩

theorem designator (cat : Category) (d : Designator) (ctx : Ctx) : Safe re (designatorEvalT cat d ctx) := by
  unfold designatorEvalT
  cases ctx with
  | none => exact throw _
  | some r =>
    refine bind (read _) fun c => ?_
    cases cat with
    | subject => exact bind (collectSubjects r d _ _) fun b => ofExcept _
    | resource => exact bind (ofExcept _) fun b => ofExcept _
    | action =>
      simp only
      rcases r.data.action with _ | as
      · exact throw _
      · exact bind (ofExcept _) fun b => ofExcept _
    | environment =>
      simp only
      rcases r.data.environment with _ | as
      · exact throw _
      · exact bind (ofExcept _) fun b => ofExcept _

theorem selector (sel : Selector) (ctx : Ctx) : Safe re (selectorEvalT sel ctx) := by
  unfold selectorEvalT
  cases ctx with
  | none => exact throw _
  | some r =>
    simp only
    rcases r.attributeSelector with _ | xp
    · exact throw _
    simp only
    rcases sel.dataType with _ | dt
    · exact throw _
    refine bind (read _) fun cls => ?_
    rcases cls with _ | c
    · exact throw _
    simp only
    rcases xp sel.path with e | texts
    · exact throw _
    simp only
    rcases selectValues c dt texts with e | vs
    · exact throw _
    · exact ofExcept _

mutual
theorem expr {env : Env} (he : env.re = re) (ctx : Ctx) : (e : Expr) → Safe re (e.evaluateT env ctx)
  | .value v => by unfold Expr.evaluateT; exact pure _
  | .designator cat d => by unfold Expr.evaluateT; exact designator cat d ctx
  | .selector s => by unfold Expr.evaluateT; exact selector s ctx
  | .apply fn args => by
    unfold Expr.evaluateT
    refine bind (exprs he ctx args) fun vs => ?_
    cases fn with
    | none => exact throw _
    | some f => exact func he f vs
theorem exprs {env : Env} (he : env.re = re) (ctx : Ctx) : (es : List Expr) → Safe re (Expr.evaluateListT env ctx es)
  | [] => by unfold Expr.evaluateListT; exact pure _
  | e :: es => by
    unfold Expr.evaluateListT
    exact bind (expr he ctx e) fun v => bind (exprs he ctx es) fun vs => pure _
end

theorem matchLoop {env : Env} (he : env.re = re) (m : Match) (vs : List AttrVal) : Safe re (matchLoopT env m vs) := by
  induction vs with
  | nil => exact pure _
  | cons v vs ih =>
    unfold matchLoopT
    refine bind ?_ fun x => bind ih fun xs => pure _
    unfold matchOneT
    cases m.func with
    | none => exact bind (throw _) fun x => bind (ofExcept _) fun _ => pure _
    | some f => exact bind (func he f _) fun x => bind (ofExcept _) fun _ => pure _

theorem matchEval {env : Env} (he : env.re = re) (ctx : Ctx) (m : Match) : Safe re (m.evaluateT env ctx) := by
  unfold Match.evaluateT
  refine bind ?_ fun vals => ?_
  · unfold Match.requestValuesT
    rcases m.designator with _ | ⟨cat, d⟩
    · rcases m.selector with _ | s
      · exact throw _
      · exact selector s ctx
    · exact designator _ _ ctx
  · cases vals with
    | bag b => exact bind (matchLoop he m _) fun xs => pure _
    | _ => exact throw _

theorem evalMatches {env : Env} (he : env.re = re) (ctx : Ctx) (ms : List Match) : Safe re (evalMatchesT env ctx ms) := by
  induction ms with
  | nil => exact pure _
  | cons m ms ih => exact bind (matchEval he ctx m) fun b => bind ih fun bs => pure _

theorem matchSection {env : Env} (he : env.re = re) (ctx : Ctx) (cs : List TargetChild) : Safe re (matchSectionT env ctx cs) := by
  unfold matchSectionT
  split
  · exact pure _
  · generalize false = st
    induction cs generalizing st with
    | nil => exact pure _
    | cons c cs ih =>
      unfold sectionLoopT
      refine bind (bind (evalMatches he ctx _) fun bs => pure _) fun b => ?_
      cases cs with
      | nil => exact pure _
      | cons c' cs' => exact ih (by simp) _

theorem targetMatch {env : Env} (he : env.re = re) (ctx : Ctx) (t : Option Target) : Safe re (targetMatchT env t ctx) := by
  cases t with
  | none => exact pure _
  | some t =>
    refine bind (matchSection he ctx _) fun _ => ?_
    refine bind (matchSection he ctx _) fun _ => ?_
    refine bind (matchSection he ctx _) fun _ => ?_
    exact bind (matchSection he ctx _) fun _ => pure _

theorem rule {env : Env} (he : env.re = re) (ctx : Ctx) (r : Rule) : Safe re (r.evaluateT env ctx) := by
  refine handle ?_ fun _ => pure _
  unfold Rule.bodyT
  refine bind (targetMatch he ctx _) fun tm => ?_
  split
  · exact pure _
  · have tail : ∀ st : PyVal, Safe re
        (if st.truthy = true then
          match r.effect with
          | some e => (Pure.pure e.toDecision : Thread Decision)
          | none => Prog.throw Exc.attributeError
        else Pure.pure Decision.notApplicable) := by
      intro st
      split
      · split
        · exact pure _
        · exact throw _
      · exact pure _
    cases r.condition with
    | none => exact bind (pure _) tail
    | some c =>
      refine bind ?_ tail
      unfold Condition.evaluateT
      rcases c.expression with _ | e
      · exact throw _
      · exact expr he ctx _

theorem combineRules (alg : Option Alg) (cs : List RuleChildT) (h : ∀ c ∈ cs, Safe re c.run) : Safe re (combineRulesT alg cs) := by
  rcases alg with _ | (_ | _ | _)
  · exact throw _
  · show Safe re (denyOverridesRulesT {} cs)
    generalize ({} : Flags) = f
    induction cs generalizing f with
    | nil =>
      simp only [denyOverridesRulesT]
      split
      · exact pure _
      · split
        · exact pure _
        · split <;> exact pure _
    | cons c cs ih =>
      have ih := fun f => ih (fun c hc => h c (List.mem_cons_of_mem _ hc)) f
      simp only [denyOverridesRulesT]
      refine bind (h c (List.mem_cons_self ..)) fun d => ?_
      cases d with
      | deny => exact pure _
      | permit => exact ih _
      | notApplicable => exact ih _
      | indeterminate =>
        simp only
        rcases c.effect with _ | (_ | _)
        · exact throw _
        · exact ih _
        · exact ih _
  · show Safe re (permitOverridesRulesT {} cs)
    generalize ({} : Flags) = f
    induction cs generalizing f with
    | nil =>
      simp only [permitOverridesRulesT]
      split
      · exact pure _
      · split
        · exact pure _
        · split <;> exact pure _
    | cons c cs ih =>
      have ih := fun f => ih (fun c hc => h c (List.mem_cons_of_mem _ hc)) f
      simp only [permitOverridesRulesT]
      refine bind (h c (List.mem_cons_self ..)) fun d => ?_
      cases d with
      | deny => exact ih _
      | permit => exact pure _
      | notApplicable => exact ih _
      | indeterminate =>
        simp only
        rcases c.effect with _ | (_ | _)
        · exact throw _
        · exact ih _
        · exact ih _
  · show Safe re (firstApplicableT (cs.map RuleChildT.run))
    induction cs with
    | nil => exact pure _
    | cons c cs ih =>
      refine bind (h c (List.mem_cons_self ..)) fun d => ?_
      cases d with
      | notApplicable => exact ih fun c hc => h c (List.mem_cons_of_mem _ hc)
      | _ => exact pure _

theorem combinePolicies (alg : Option Alg) (ts : List (Thread Decision)) (h : ∀ t ∈ ts, Safe re t) : Safe re (combinePoliciesT alg ts) := by
  rcases alg with _ | (_ | _ | _)
  · exact throw _
  · show Safe re (denyOverridesPoliciesT false ts)
    generalize false = b
    induction ts generalizing b with
    | nil => cases b <;> exact pure _
    | cons t ts ih =>
      refine bind (h t (List.mem_cons_self ..)) fun d => ?_
      cases d with
      | notApplicable => exact ih (fun c hc => h c (List.mem_cons_of_mem _ hc)) _
      | permit => exact ih (fun c hc => h c (List.mem_cons_of_mem _ hc)) _
      | _ => exact pure _
  · show Safe re (permitOverridesPoliciesT false false ts)
    suffices hh : ∀ b c, Safe re (permitOverridesPoliciesT b c ts) from hh _ _
    intro b c
    induction ts generalizing b c with
    | nil => cases b <;> cases c <;> exact pure _
    | cons t ts ih =>
      refine bind (h t (List.mem_cons_self ..)) fun d => ?_
      cases d with
      | permit => exact pure _
      | _ => exact ih (fun c hc => h c (List.mem_cons_of_mem _ hc)) _ _
  · show Safe re (firstApplicableT ts)
    induction ts with
    | nil => exact pure _
    | cons c cs ih =>
      refine bind (h c (List.mem_cons_self ..)) fun d => ?_
      cases d with
      | notApplicable => exact ih fun c hc => h c (List.mem_cons_of_mem _ hc)
      | _ => exact pure _

theorem policyBase {env : Env} (he : env.re = re) (ctx : Ctx) (hdr : Header) {t : Thread Decision} (h : Safe re t) :
    Safe re (policyBaseEvaluateT env hdr ctx t) := by
  refine handle (bind (targetMatch he ctx _) fun tm => ?_) fun _ => pure _
  split
  · exact pure _
  · exact h

mutual
theorem policy {env : Env} (he : env.re = re) (ctx : Ctx) : (p : PolicyNode) → Safe re (p.evaluateT env ctx)
  | .policy hdr rules => by
    unfold PolicyNode.evaluateT
    refine policyBase he ctx hdr (combineRules _ _ fun c hc => ?_)
    obtain ⟨r, _, rfl⟩ := List.mem_map.1 hc
    exact rule he ctx r
  | .policySet hdr ps => by
    unfold PolicyNode.evaluateT
    exact policyBase he ctx hdr (combinePolicies _ _ (policies he ctx ps))
theorem policies {env : Env} (he : env.re = re) (ctx : Ctx) :
    (ps : List PolicyNode) → ∀ t ∈ PolicyNode.evaluatorsT env ctx ps, Safe re t
  | [] => by unfold PolicyNode.evaluatorsT; exact fun t ht => by cases ht
  | p :: ps => by
    unfold PolicyNode.evaluatorsT
    intro t ht
    rcases List.mem_cons.1 ht with rfl | ht
    · exact policy he ctx p
    · exact policies he ctx ps t ht
end

theorem pdp {env : Env} (he : env.re = re) (ctx : Ctx) : Safe re (pdpEvaluateT env ctx) := by
  refine bind (read _) fun p => ?_
  cases p with
  | none => exact throw _
  | some p =>
    refine handle (bind (policy he ctx p) fun d => pure _) fun e => ?_
    split
    · exact pure _
    · exact throw _

end Safe

/-! ## Threads do not use the classes given in `Env` -/

namespace NoClasses
variable (env : Env) (m : List (String × AVClass)) (ctx : Ctx)

theorem func (f : Func) (args : List PyVal) : f.evaluateT { env with classMap := m } args = f.evaluateT env args := by
  cases f <;> rfl

mutual
theorem expr : (e : Expr) → e.evaluateT { env with classMap := m } ctx = e.evaluateT env ctx
  | .value v => by simp only [Expr.evaluateT]
  | .designator cat d => by simp only [Expr.evaluateT]
  | .selector s => by simp only [Expr.evaluateT]
  | .apply fn args => by simp only [Expr.evaluateT, exprs args, func]
theorem exprs : (es : List Expr) → Expr.evaluateListT { env with classMap := m } ctx es = Expr.evaluateListT env ctx es
  | [] => by simp only [Expr.evaluateListT]
  | e :: es => by simp only [Expr.evaluateListT, expr e, exprs es]
end

theorem matchLoop (x : Match) (vs : List AttrVal) : matchLoopT { env with classMap := m } x vs = matchLoopT env x vs := by
  induction vs with
  | nil => rfl
  | cons v vs ih => simp only [matchLoopT, matchOneT, func, ih]

theorem evalMatches (ms : List Match) : evalMatchesT { env with classMap := m } ctx ms = evalMatchesT env ctx ms := by
  induction ms with
  | nil => rfl
  | cons x ms ih => simp only [evalMatchesT, Match.evaluateT, Match.requestValuesT, matchLoop, ih]

theorem sectionLoop (b : Bool) (cs : List TargetChild) :
    sectionLoopT { env with classMap := m } ctx b cs = sectionLoopT env ctx b cs := by
  induction cs generalizing b with
  | nil => rfl
  | cons c cs ih => simp only [sectionLoopT, matchChildT, evalMatches, ih]

theorem target (t : Option Target) : targetMatchT { env with classMap := m } t ctx = targetMatchT env t ctx := by
  cases t with
  | none => rfl
  | some t => simp only [targetMatchT, Target.matchT, matchSectionT, sectionLoop]

theorem rule (r : Rule) : r.childT { env with classMap := m } ctx = r.childT env ctx := by
  simp only [Rule.childT, Rule.evaluateT, Rule.bodyT, Condition.evaluateT, target, expr]

mutual
theorem policy : (p : PolicyNode) → p.evaluateT { env with classMap := m } ctx = p.evaluateT env ctx
  | .policy hdr rules => by
    have : Rule.childT { env with classMap := m } ctx = Rule.childT env ctx := funext (rule env m ctx)
    simp only [PolicyNode.evaluateT, policyBaseEvaluateT, target, this]
  | .policySet hdr ps => by simp only [PolicyNode.evaluateT, policyBaseEvaluateT, target, policies ps]
theorem policies : (ps : List PolicyNode) →
    PolicyNode.evaluatorsT { env with classMap := m } ctx ps = PolicyNode.evaluatorsT env ctx ps
  | [] => by simp only [PolicyNode.evaluatorsT]
  | p :: ps => by simp only [PolicyNode.evaluatorsT, policy p, policies ps]
end

theorem pdp : pdpEvaluateT { env with classMap := m } ctx = pdpEvaluateT env ctx := by
  simp only [pdpEvaluateT, PolicyNode.evaluateResponseT, policy]

end NoClasses
end Xacml
