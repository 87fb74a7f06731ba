import Verif.Lemmas.Sim
import Verif.Props.Combining
import Verif.Spec.Samples

/-!
# C24–C27, C54, C59: independence of history, order, inapplicable children, logging level
-/
namespace Xacml
open Spec

private theorem rel_true {env : Env} {w w' : World} (h : History env.re w) (h' : History env.re w') :
    Rel (fun _ _ => True) env.re w w' := ⟨history_coh h, history_coh h', trivial⟩

/-! ## C24 -/

/-- C24: after any history, a regexp-match call compiles afresh, as far as its result shows. -/
theorem C24_regexp_match (env : Env) (t : AVClass) (p i : AttrVal) (pat s : String) (w : World)
    (hw : History env.re w)
    (hp : p.isInst t = true) (hi : i.isInst t = true)
    (hpv : p.value = some (.str pat)) (hiv : i.value = some (.str s)) :
    ((Func.regexpMatch t).evaluate env [.av p, .av i] w).1 =
      match env.re pat with
      | .ok m => .ok (.native (.bool (m s)))
      | .error e => .error e := by
  obtain ⟨h1, _, _⟩ := getRegex_coh env pat w (history_coh hw)
  simp only [Func.evaluate, regexpMatchFn, hp, hi, if_true, hpv, hiv, run_bind]
  rcases hg : getRegex env pat w with ⟨x, w1⟩
  rw [hg] at h1
  simp only at h1
  rw [← h1]
  cases x <;> rfl

/-- C24 for whole evaluations, with any PIP: the response after a history is the response with an
empty cache. -/
theorem C24_cache_transparent (env : Env) (policy : Option PolicyNode) (ctx : Ctx) (w : World)
    (hw : History env.re w) :
    (pdpEvaluate env policy ctx w).1 = (pdpEvaluate env policy ctx { w with cache := [] }).1 := by
  cases policy with
  | none => rfl
  | some p =>
    refine (Sim.pdp (Sim.policy (envOK_refl env) (pipOK_eq ctx) p fun m _ => debugOK_refl env m) _ _ ?_).1
    exact ⟨history_coh hw, by intro p m h; simp at h, rfl⟩

section NonVacuity
open Samples
/-- Two matches with the same pattern: the second finds it in the cache. -/
example : ((Func.regexpMatch stringClass).evaluate env [.av (str "ad"), .av (str "admin")] w0).2.cache.length = 1 := rfl
example : History env.re ((Func.regexpMatch stringClass).evaluate env [.av (str "ad"), .av (str "admin")] start).2 :=
  .call env _ _ rfl .start
end NonVacuity

/-! ## C25 -/

/-- C25: after any two histories, the same response. -/
theorem C25_history_independent (env : Env) (policy : Option PolicyNode) (ctx : Ctx) (w w' : World)
    (hpip : StatelessPip ctx) (hw : History env.re w) (hw' : History env.re w') :
    (pdpEvaluate env policy ctx w).1 = (pdpEvaluate env policy ctx w').1 := by
  cases policy with
  | none => rfl
  | some p =>
    exact (Sim.pdp (Sim.policy (envOK_refl env) (pipOK_stateless hpip) p fun m _ => debugOK_refl env m)
      _ _ (rel_true hw hw')).1

/-! ## C26 -/

private theorem constant_runs {α : Type} {env : Env} (f : α → EvalM Decision)
    (hok : ∀ a w, ∃ d w', f a w = (.ok d, w'))
    (hsim : ∀ a, Sim (fun _ _ => True) env.re (f a) (f a)) :
    ∃ c : α → Decision,
      (∀ a w, Coh env.re w → (f a w).1 = .ok (c a)) ∧
      ∀ (as : List α) w, Coh env.re w → ∃ w', Runs (as.map f) w (as.map c) w' := by
  have h0 : ∀ a, ∃ d, (f a start).1 = .ok d := by
    intro a; obtain ⟨d, w', h⟩ := hok a start; exact ⟨d, by rw [h]⟩
  refine ⟨fun a => (h0 a).choose, ?_, ?_⟩
  · intro a w hw
    rw [← (h0 a).choose_spec]
    exact (hsim a w start ⟨hw, by intro p m h; simp [start] at h, trivial⟩).1
  · intro as
    induction as with
    | nil => intro w _; exact ⟨w, .nil w⟩
    | cons a as ih =>
      intro w hw
      have h1 : (f a w).1 = .ok (h0 a).choose := by
        rw [← (h0 a).choose_spec]
        exact (hsim a w start ⟨hw, by intro p m h; simp [start] at h, trivial⟩).1
      have h2 : Coh env.re (f a w).2 := (hsim a w w ⟨hw, hw, trivial⟩).2.1
      obtain ⟨w', hr⟩ := ih _ h2
      exact ⟨w', .cons (Prod.ext h1 rfl) hr⟩

private theorem sim_rule_self (env : Env) (ctx : Ctx) (hpip : StatelessPip ctx) (r : Rule) :
    Sim (fun _ _ => True) env.re (r.evaluate env ctx) (r.evaluate env ctx) :=
  Sim.rule (envOK_refl env) (pipOK_stateless hpip) r fun m _ => debugOK_refl env m

private theorem sim_policy_self (env : Env) (ctx : Ctx) (hpip : StatelessPip ctx) (p : PolicyNode) :
    Sim (fun _ _ => True) env.re (p.evaluate env ctx) (p.evaluate env ctx) :=
  Sim.policy (envOK_refl env) (pipOK_stateless hpip) p fun m _ => debugOK_refl env m

private theorem target_coh {env : Env} {ctx : Ctx} (hpip : StatelessPip ctx) {t : Option Target} {w w1 : World}
    {x} (hw : Coh env.re w) (h : targetMatch env t ctx w = (x, w1)) : Coh env.re w1 := by
  have := (Sim.targetMatch (L := fun _ _ => True) (envOK_refl env) (pipOK_stateless hpip) t
    (fun m _ => debugOK_refl env m) w w ⟨hw, hw, trivial⟩).2.1
  rwa [h] at this

private theorem zip_map_mem {α β γ} (f : α → β) (g : α → γ) (as : List α) (x : β × γ) :
    x ∈ (as.map f).zip (as.map g) ↔ ∃ a ∈ as, (f a, g a) = x := by
  induction as with
  | nil => simp
  | cons a as ih => simp [ih, eq_comm]

/-- C26, rules. Every rule has an effect (as in any policy read from XML). -/
theorem C26_rules (env : Env) (ctx : Ctx) (hdr : Header) (rules rules' : List Rule) (w : World)
    (hpip : StatelessPip ctx) (hw : History env.re w)
    (halg : hdr.alg = some .denyOverrides ∨ hdr.alg = some .permitOverrides)
    (heff : ∀ r ∈ rules, r.effect ≠ none) (hperm : rules.Perm rules') :
    ((PolicyNode.policy hdr rules).evaluate env ctx w).1 = ((PolicyNode.policy hdr rules').evaluate env ctx w).1 := by
  have hw := history_coh hw
  obtain ⟨c, _, hc⟩ := constant_runs (env := env) (fun r : Rule => r.evaluate env ctx)
    (fun r w => rule_evaluate_ok env r ctx w) (sim_rule_self env ctx hpip)
  have heff' : ∀ r ∈ rules', r.effect ≠ none := fun r hr => heff r (hperm.mem_iff.2 hr)
  have hmem : ∀ d, d ∈ rules.map c ↔ d ∈ rules'.map c := fun d => (hperm.map c).mem_iff
  have hz : ∀ x, x ∈ (rules.map (·.effect)).zip (rules.map c) ↔ x ∈ (rules'.map (·.effect)).zip (rules'.map c) := by
    intro x
    rw [zip_map_mem, zip_map_mem]
    simp only [hperm.mem_iff]
  rcases ht : targetMatch env hdr.target ctx w with ⟨x, w1⟩
  have hw1 := target_coh hpip hw ht
  match x, ht with
  | .error e, ht => simp [PolicyNode.evaluate, policyBaseEvaluate, catchAll, run_bind_error ht]
  | .ok false, ht => simp [PolicyNode.evaluate, policyBaseEvaluate, catchAll, run_bind_ok ht]
  | .ok true, ht =>
    obtain ⟨w2, h2⟩ := hc rules w1 hw1
    obtain ⟨w2', h2'⟩ := hc rules' w1 hw1
    rcases halg with halg | halg
    · obtain ⟨w3, h3, _⟩ := C01_rule_deny_overrides env ctx hdr rules w w1 w2 _ halg ht h2 heff
      obtain ⟨w3', h3', _⟩ := C01_rule_deny_overrides env ctx hdr rules' w w1 w2' _ halg ht h2' heff'
      rw [h3, h3']
      simp only [ruleDenyOverrides, hmem, hz]
    · obtain ⟨w3, h3, _⟩ := C02_rule_permit_overrides env ctx hdr rules w w1 w2 _ halg ht h2 heff
      obtain ⟨w3', h3', _⟩ := C02_rule_permit_overrides env ctx hdr rules' w w1 w2' _ halg ht h2' heff'
      rw [h3, h3']
      simp only [rulePermitOverrides, hmem, hz]

/-- C26, policies. -/
theorem C26_policies (env : Env) (ctx : Ctx) (hdr : Header) (ps ps' : List PolicyNode) (w : World)
    (hpip : StatelessPip ctx) (hw : History env.re w)
    (halg : hdr.alg = some .denyOverrides ∨ hdr.alg = some .permitOverrides) (hperm : ps.Perm ps') :
    ((PolicyNode.policySet hdr ps).evaluate env ctx w).1 = ((PolicyNode.policySet hdr ps').evaluate env ctx w).1 := by
  have hw := history_coh hw
  obtain ⟨c, _, hc⟩ := constant_runs (env := env) (fun p : PolicyNode => p.evaluate env ctx)
    (fun p w => policy_evaluate_ok env p ctx w) (sim_policy_self env ctx hpip)
  have hmem : ∀ d, d ∈ ps.map c ↔ d ∈ ps'.map c := fun d => (hperm.map c).mem_iff
  rcases ht : targetMatch env hdr.target ctx w with ⟨x, w1⟩
  have hw1 := target_coh hpip hw ht
  match x, ht with
  | .error e, ht => simp [PolicyNode.evaluate, policyBaseEvaluate, catchAll, run_bind_error ht]
  | .ok false, ht => simp [PolicyNode.evaluate, policyBaseEvaluate, catchAll, run_bind_ok ht]
  | .ok true, ht =>
    obtain ⟨w2, h2⟩ := hc ps w1 hw1
    obtain ⟨w2', h2'⟩ := hc ps' w1 hw1
    rcases halg with halg | halg
    · obtain ⟨w3, h3, _⟩ := C04_policy_deny_overrides env ctx hdr ps w w1 w2 _ halg ht h2
      obtain ⟨w3', h3', _⟩ := C04_policy_deny_overrides env ctx hdr ps' w w1 w2' _ halg ht h2'
      rw [h3, h3']
      simp only [policyDenyOverrides, hmem]
    · obtain ⟨w3, h3, _⟩ := C05_policy_permit_overrides env ctx hdr ps w w1 w2 _ halg ht h2
      obtain ⟨w3', h3', _⟩ := C05_policy_permit_overrides env ctx hdr ps' w w1 w2' _ halg ht h2'
      rw [h3, h3']
      simp only [policyPermitOverrides, hmem]

section NonVacuity
open Samples
example : StatelessPip ctx := by intro r hr pip hp; cases hr; cases hp
def echoPip : Pip := fun _ q => .ok (.iter ⟨false, [.av (str (q.designator.attributeId.getD ""))]⟩)
example : StatelessPip (some { req with ctxHandler := some echoPip }) := by
  rintro r hr pip hp l l' q
  injection hr with hr; subst hr
  injection hp with hp; subst hp; rfl

/-- The hypothesis on the PIP is needed: with a PIP that answers differently the second time,
permit-overrides depends on the order of the rules. -/
def fickle : Request :=
  { req with
    data := { data with subjects := [{ category := none, attributes := [] }] }
    ctxHandler := some fun log _ => .ok (.iter ⟨false, [.av (str (if log.isEmpty then "a" else "b"))]⟩) }
example :
    ((PolicyNode.policy (hdr .permitOverrides) [roleRule .permit "a", roleRule .deny "b"]).evaluate
      env (some fickle) w0).1 = .ok .permit ∧
    ((PolicyNode.policy (hdr .permitOverrides) [roleRule .deny "b", roleRule .permit "a"]).evaluate
      env (some fickle) w0).1 = .ok .notApplicable := ⟨rfl, rfl⟩
end NonVacuity

/-! ## C27 -/

private theorem na_sim {env : Env} {m : EvalM Decision} (hsim : Sim (fun _ _ => True) env.re m m)
    {w' : World} (hw' : Coh env.re w') (hna : (m w').1 = .ok .notApplicable) :
    ∀ w, Coh env.re w → ∃ w1, m w = (.ok .notApplicable, w1) ∧ Coh env.re w1 := by
  intro w hw
  obtain ⟨h1, h2⟩ := hsim w w' ⟨hw, hw', trivial⟩
  exact ⟨(m w).2, Prod.ext (h1.trans hna) rfl, h2.1⟩

private theorem skip {α} {re} {m : EvalM Decision} {k : Decision → EvalM α} {k' : EvalM α}
    (hna : ∀ w, Coh re w → ∃ w1, m w = (.ok .notApplicable, w1) ∧ Coh re w1)
    (hk : Sim (fun _ _ => True) re (k .notApplicable) k') : Sim (fun _ _ => True) re (m >>= k) k' := by
  intro w w' ⟨hw, hw', _⟩
  obtain ⟨w1, h1, h2⟩ := hna w hw
  rw [run_bind_ok h1]
  exact hk w1 w' ⟨h2, hw', trivial⟩

private theorem skip_first {re} {ms ms' : List (EvalM Decision)} {m : EvalM Decision}
    (hna : ∀ w, Coh re w → ∃ w1, m w = (.ok .notApplicable, w1) ∧ Coh re w1)
    (hs : ∀ c ∈ ms ++ ms', Sim (fun _ _ => True) re c c) (alg : Option Alg) :
    Sim (fun _ _ => True) re (combinePolicies alg (ms ++ m :: ms')) (combinePolicies alg (ms ++ ms')) := by
  have self : ∀ l : List (EvalM Decision), (∀ c ∈ l, Sim (fun _ _ => True) re c c) → SimList (fun _ _ => True) re l l := by
    intro l h
    induction l with
    | nil => exact .nil
    | cons a l ih => exact .cons (h a (by simp)) (ih fun c hc => h c (by simp [hc]))
  unfold combinePolicies
  cases alg with
  | none => exact Sim.throw _
  | some alg =>
    cases alg with
    | denyOverrides =>
      simp only
      generalize false = b
      induction ms generalizing b with
      | nil => exact skip hna (Sim.denyOverridesPolicies (self _ fun c hc => hs c (by simp [hc])) _)
      | cons a ms ih =>
        simp only [List.cons_append, denyOverridesPolicies]
        refine Sim.bind (hs a (by simp)) fun d => ?_
        have ih := ih fun c hc => hs c (by simp only [List.cons_append, List.mem_cons, hc, or_true])
        cases d <;> first | exact Sim.pure _ | exact ih _
    | permitOverrides =>
      suffices h : ∀ b1 b2, Sim (fun _ _ => True) re (permitOverridesPolicies b1 b2 (ms ++ m :: ms'))
          (permitOverridesPolicies b1 b2 (ms ++ ms')) from h _ _
      intro b1 b2
      induction ms generalizing b1 b2 with
      | nil => exact skip hna (Sim.permitOverridesPolicies (self _ fun c hc => hs c (by simp [hc])) _ _)
      | cons a ms ih =>
        simp only [List.cons_append, permitOverridesPolicies]
        refine Sim.bind (hs a (by simp)) fun d => ?_
        have ih := ih fun c hc => hs c (by simp only [List.cons_append, List.mem_cons, hc, or_true])
        cases d <;> first | exact Sim.pure _ | exact ih _ _
    | firstApplicable =>
      simp only
      induction ms with
      | nil => exact skip hna (Sim.firstApplicable (self _ fun c hc => hs c (by simp [hc])))
      | cons a ms ih =>
        simp only [List.cons_append, firstApplicable]
        refine Sim.bind (hs a (by simp)) fun d => ?_
        have ih := ih fun c hc => hs c (by simp only [List.cons_append, List.mem_cons, hc, or_true])
        cases d <;> first | exact Sim.pure _ | exact ih

private theorem skip_rule {re} {ms ms' : List RuleChild} {m : RuleChild}
    (hna : ∀ w, Coh re w → ∃ w1, m.run w = (.ok .notApplicable, w1) ∧ Coh re w1)
    (hs : ∀ c ∈ ms ++ ms', Sim (fun _ _ => True) re c.run c.run) (alg : Option Alg) :
    Sim (fun _ _ => True) re (combineRules alg (ms ++ m :: ms')) (combineRules alg (ms ++ ms')) := by
  have self : ∀ l : List RuleChild, (∀ c ∈ l, Sim (fun _ _ => True) re c.run c.run) →
      SimRules (fun _ _ => True) re l l := by
    intro l h
    induction l with
    | nil => exact .nil
    | cons a l ih => exact .cons rfl (h a (by simp)) (ih fun c hc => h c (by simp [hc]))
  unfold combineRules
  cases alg with
  | none => exact Sim.throw _
  | some alg =>
    cases alg with
    | denyOverrides =>
      simp only
      generalize ({} : Flags) = b
      induction ms generalizing b with
      | nil => exact skip hna (Sim.denyOverridesRules (self _ fun c hc => hs c (by simp [hc])) _)
      | cons a ms ih =>
        simp only [List.cons_append, denyOverridesRules]
        refine Sim.bind (hs a (by simp)) fun d => ?_
        have ih := ih fun c hc => hs c (by simp only [List.cons_append, List.mem_cons, hc, or_true])
        cases d with
        | deny => exact Sim.pure _
        | permit => exact ih _
        | notApplicable => exact ih _
        | indeterminate =>
          simp only
          split
          · exact Sim.throw _
          · exact ih _
          · exact ih _
    | permitOverrides =>
      simp only
      generalize ({} : Flags) = b
      induction ms generalizing b with
      | nil => exact skip hna (Sim.permitOverridesRules (self _ fun c hc => hs c (by simp [hc])) _)
      | cons a ms ih =>
        simp only [List.cons_append, permitOverridesRules]
        refine Sim.bind (hs a (by simp)) fun d => ?_
        have ih := ih fun c hc => hs c (by simp only [List.cons_append, List.mem_cons, hc, or_true])
        cases d with
        | permit => exact Sim.pure _
        | deny => exact ih _
        | notApplicable => exact ih _
        | indeterminate =>
          simp only
          split
          · exact Sim.throw _
          · exact ih _
          · exact ih _
    | firstApplicable =>
      simp only [List.map_append, List.map_cons]
      refine skip_first hna ?_ (some .firstApplicable)
      intro c hc
      rw [← List.map_append] at hc
      obtain ⟨c', hc', rfl⟩ := List.mem_map.1 hc
      exact hs c' hc'

/-- C27, rules: under any algorithm, a rule that is NotApplicable to the request (in any reachable
state) can be inserted or removed anywhere. -/
theorem C27_rules (env : Env) (ctx : Ctx) (hdr : Header) (pre post : List Rule) (r : Rule) (w w' : World)
    (hpip : StatelessPip ctx) (hw : History env.re w) (hw' : History env.re w')
    (hna : (r.evaluate env ctx w').1 = .ok .notApplicable) :
    ((PolicyNode.policy hdr (pre ++ r :: post)).evaluate env ctx w).1
      = ((PolicyNode.policy hdr (pre ++ post)).evaluate env ctx w).1 := by
  have h : Sim (fun _ _ => True) env.re (combineRules hdr.alg ((pre ++ r :: post).map (Rule.child env ctx)))
      (combineRules hdr.alg ((pre ++ post).map (Rule.child env ctx))) := by
    simp only [List.map_append, List.map_cons]
    refine skip_rule (m := Rule.child env ctx r) (na_sim (sim_rule_self env ctx hpip r) (history_coh hw') hna) ?_ _
    intro c hc
    rw [← List.map_append] at hc
    obtain ⟨r', _, rfl⟩ := List.mem_map.1 hc
    exact sim_rule_self env ctx hpip r'
  simp only [PolicyNode.evaluate]
  exact (Sim.policyBase (envOK_refl env) (pipOK_stateless hpip) hdr (fun m _ => debugOK_refl env m) h
    w w (rel_true hw hw)).1

/-- C27, policies. -/
theorem C27_policies (env : Env) (ctx : Ctx) (hdr : Header) (pre post : List PolicyNode) (p : PolicyNode)
    (w w' : World) (hpip : StatelessPip ctx) (hw : History env.re w) (hw' : History env.re w')
    (hna : (p.evaluate env ctx w').1 = .ok .notApplicable) :
    ((PolicyNode.policySet hdr (pre ++ p :: post)).evaluate env ctx w).1
      = ((PolicyNode.policySet hdr (pre ++ post)).evaluate env ctx w).1 := by
  have h : Sim (fun _ _ => True) env.re
      (combinePolicies hdr.alg (PolicyNode.evaluators env ctx (pre ++ p :: post)))
      (combinePolicies hdr.alg (PolicyNode.evaluators env ctx (pre ++ post))) := by
    simp only [evaluators_eq_map, List.map_append, List.map_cons]
    refine skip_first (na_sim (sim_policy_self env ctx hpip p) (history_coh hw') hna) ?_ _
    intro c hc
    rw [← List.map_append] at hc
    obtain ⟨r', _, rfl⟩ := List.mem_map.1 hc
    exact sim_policy_self env ctx hpip r'
  simp only [PolicyNode.evaluate]
  exact (Sim.policyBase (envOK_refl env) (pipOK_stateless hpip) hdr (fun m _ => debugOK_refl env m) h
    w w (rel_true hw hw)).1

section NonVacuity
open Samples
example : ((roleRule .deny "guest").evaluate env ctx start).1 = .ok .notApplicable := rfl
example : ((PolicyNode.policy (hdr .denyOverrides) ([always .permit] ++ roleRule .deny "guest" :: [failing .deny])).evaluate
    env ctx start).1 = .ok .indeterminate := rfl
end NonVacuity

/-! ## C59 -/

/-- A policy tree with a hole. -/
inductive PolicyContext where
  | hole
  | inSet (hdr : Header) (pre : List PolicyNode) (c : PolicyContext) (post : List PolicyNode)

def PolicyContext.fill : PolicyContext → PolicyNode → PolicyNode
  | .hole, p => p
  | .inSet hdr pre c post, p => .policySet hdr (pre ++ c.fill p :: post)

/-- C59: replacing a sub-policy, however deep, by one that gives the same decision for the request
(in some reachable states) does not change the response. -/
theorem C59_compositional (env : Env) (ctx : Ctx) (c : PolicyContext) (p q : PolicyNode)
    (w w1 w2 : World) (hpip : StatelessPip ctx)
    (hw : History env.re w) (hw1 : History env.re w1) (hw2 : History env.re w2)
    (hpq : (p.evaluate env ctx w1).1 = (q.evaluate env ctx w2).1) :
    (pdpEvaluate env (some (c.fill p)) ctx w).1 = (pdpEvaluate env (some (c.fill q)) ctx w).1 := by
  have base : Sim (fun _ _ => True) env.re (p.evaluate env ctx) (q.evaluate env ctx) := by
    intro v v' ⟨hv, hv', _⟩
    have h1 := sim_policy_self env ctx hpip p v w1 ⟨hv, history_coh hw1, trivial⟩
    have h2 := sim_policy_self env ctx hpip q v' w2 ⟨hv', history_coh hw2, trivial⟩
    exact ⟨h1.1.trans (hpq.trans h2.1.symm), h1.2.1, h2.2.1, trivial⟩
  have self : ∀ l : List PolicyNode, SimList (fun _ _ => True) env.re
      (l.map (PolicyNode.evaluate env ctx)) (l.map (PolicyNode.evaluate env ctx)) := by
    intro l
    induction l with
    | nil => exact .nil
    | cons a l ih => exact .cons (sim_policy_self env ctx hpip a) ih
  have key : Sim (fun _ _ => True) env.re ((c.fill p).evaluate env ctx) ((c.fill q).evaluate env ctx) := by
    induction c with
    | hole => exact base
    | inSet hdr pre c post ih =>
      simp only [PolicyContext.fill, PolicyNode.evaluate]
      refine Sim.policyBase (envOK_refl env) (pipOK_stateless hpip) hdr (fun m _ => debugOK_refl env m)
        (Sim.combinePolicies ?_ _)
      simp only [evaluators_eq_map, List.map_append, List.map_cons]
      induction pre with
      | nil => exact .cons ih (self post)
      | cons a pre ihp => exact .cons (sim_policy_self env ctx hpip a) ihp
  exact (Sim.pdp key w w (rel_true hw hw)).1

section NonVacuity
open Samples
example : ((PolicyNode.policy (hdr .denyOverrides) [always .permit]).evaluate env ctx start).1
    = ((PolicyNode.policy (hdr .firstApplicable) [roleRule .permit "admin", always .deny]).evaluate env ctx start).1 := rfl
end NonVacuity

/-! ## C54 -/

/-- C54 is violated: with a match function that returns an attribute value, switching debug logging
on turns a Permit into Indeterminate. -/
theorem C54_violated : ∃ (env : Env) (p : PolicyNode) (ctx : Ctx) (w : World),
    ((p.evaluate { env with debug := false } ctx w).1 = .ok .permit) ∧
    ((p.evaluate { env with debug := true } ctx w).1 = .ok .indeterminate) := by
  let m : Match := { Samples.roleMatch "x" with func := some (.concatenate stringClass) }
  exact ⟨Samples.env, .policy (Samples.hdr .denyOverrides
    (some { subjects := [⟨[m]⟩], resources := [], actions := [], environments := [] })) [Samples.always .permit],
    Samples.ctx, Samples.w0, rfl, rfl⟩

/-- C54, partial: if no match function in the tree returns attribute values, the logging level is
irrelevant to the response, for any PIP. (Missing: match functions that return attribute values,
see `C54_violated`.) -/
theorem C54_partial (env : Env) (b b' : Bool) (p : PolicyNode) (ctx : Ctx) (w : World)
    (hw : History env.re w) (hq : ∀ m ∈ policyMatches p, Spec.Match.Quiet m) :
    (pdpEvaluate { env with debug := b } (some p) ctx w).1
      = (pdpEvaluate { env with debug := b' } (some p) ctx w).1 := by
  refine (Sim.pdp (Sim.policy (re := env.re) (env := { env with debug := b })
    (env' := { env with debug := b' }) ⟨rfl, rfl, rfl⟩ (pipOK_eq ctx) p ?_) w w
    ⟨history_coh hw, history_coh hw, rfl⟩).1
  exact fun m hm => .inr (hq m hm)

/-- The standard boolean functions are quiet. -/
theorem C54_quiet_functions (m : Match) (f : Func) (hm : m.func = some f)
    (hf : (∃ t, f = .equal t) ∨ (∃ t, f = .matchFn t) ∨ (∃ t, f = .regexpMatch t) ∨
      (∃ t, f = .atLeastOneMemberOf t) ∨ f = .and ∨ f = .not) : Spec.Match.Quiet m := by
  intro g hg env args w v
  rw [hm] at hg; injection hg with hg; subst hg
  rcases hf with ⟨t, rfl⟩ | ⟨t, rfl⟩ | ⟨t, rfl⟩ | ⟨t, rfl⟩ | rfl | rfl
  · simp only [Func.evaluate, run_ofExcept]; unfold equalFn
    (repeat' split) <;> simp
  · simp only [Func.evaluate, run_ofExcept]; unfold matchFnEval
    (repeat' split) <;> simp
  · show (regexpMatchFn env t args w).1 ≠ _
    unfold regexpMatchFn
    split
    · rename_i a b
      cases a with
      | av p =>
        cases b with
        | av i =>
          simp only
          split
          · split
            · match p.value with
              | some (.str pat) =>
                simp only [run_bind]
                split
                · match i.value with
                  | some (.str s) => simp
                  | none => simp
                  | some (.int _) => simp
                  | some (.bool _) => simp
                  | some (.float _) => simp
                  | some (.datetime _) => simp
                  | some (.timedelta _) => simp
                · simp
              | none => simp
              | some (.int _) => simp
              | some (.bool _) => simp
              | some (.float _) => simp
              | some (.datetime _) => simp
              | some (.timedelta _) => simp
            · simp
          · simp
        | _ => simp
      | _ => simp
    · simp
  · simp only [Func.evaluate, run_ofExcept]; unfold atLeastOneMemberOfFn
    (repeat' split) <;> simp
  · simp only [Func.evaluate, run_ofExcept]; unfold andFn
    (repeat' split) <;> simp
  · simp only [Func.evaluate, run_ofExcept]; unfold notFn
    (repeat' split) <;> simp

section NonVacuity
open Samples
example : ∀ m ∈ policyMatches (.policy (hdr .denyOverrides (some (roleTarget "admin"))) [roleRule .permit "staff"]),
    Spec.Match.Quiet m := by
  intro m hm
  simp [policyMatches, optMatches, hdr, roleTarget, roleRule, Spec.Target.allMatches] at hm
  rcases hm with rfl | rfl
  all_goals exact C54_quiet_functions _ _ rfl (.inl ⟨_, rfl⟩)
end NonVacuity

end Xacml
