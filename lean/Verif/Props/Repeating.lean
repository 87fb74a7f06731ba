import Verif.Spec.Repeating
import Verif.Props.Determinism

/-!
# C109: saying something again does not change decisions
-/
namespace Xacml
open Spec

private theorem constant_decisions {α : Type} {env : Env} (f : α → EvalM Decision)
    (hok : ∀ a w, ∃ d w', f a w = (.ok d, w'))
    (hsim : ∀ a, Sim (fun _ _ => True) env.re (f a) (f a)) :
    ∃ c : α → Decision,
      (∀ a w, Coh env.re w → (f a w).1 = .ok (c a)) ∧
      ∀ (as : List α) w, Coh env.re w → ∃ w', Runs (as.map f) w (as.map c) w' := by
  have h0 : ∀ a, ∃ d, (f a start).1 = .ok d := by
    intro a; obtain ⟨d, w', h⟩ := hok a start; exact ⟨d, by rw [h]⟩
  have key : ∀ a w, Coh env.re w → (f a w).1 = .ok (h0 a).choose := by
    intro a w hw
    rw [← (h0 a).choose_spec]
    exact (hsim a w start ⟨hw, by intro p m h; simp [start] at h, trivial⟩).1
  refine ⟨fun a => (h0 a).choose, key, fun as => ?_⟩
  induction as with
  | nil => intro w _; exact ⟨w, .nil w⟩
  | cons a as ih =>
    intro w hw
    obtain ⟨w', hr⟩ := ih _ (hsim a w w ⟨hw, hw, trivial⟩).2.1
    exact ⟨w', .cons (Prod.ext (key a w hw) rfl) hr⟩

private theorem mem_zip_map {α β γ} (f : α → β) (g : α → γ) (as : List α) (x : β × γ) :
    x ∈ (as.map f).zip (as.map g) ↔ ∃ a ∈ as, (f a, g a) = x := by
  induction as with
  | nil => simp
  | cons a as ih => simp [ih, eq_comm]

private theorem mem_map_congr {α β} (c : α → β) {l l' : List α} (h : ∀ a, a ∈ l ↔ a ∈ l') (d : β) :
    d ∈ l.map c ↔ d ∈ l'.map c := by
  simp only [List.mem_map, h]

/-- A later repetition is never the first decision that counts. -/
private theorem first_repeated {α} (c : α → Decision) (before after : List α) (a : α) (ha : a ∈ before) :
    Spec.firstApplicable ((before ++ a :: after).map c) = Spec.firstApplicable ((before ++ after).map c) := by
  unfold Spec.firstApplicable
  congr 1
  simp only [List.map_append, List.map_cons, List.find?_append]
  by_cases hc : c a = .notApplicable
  · rw [List.find?_cons_of_neg (by simp [hc])]
  · have : ((before.map c).find? (· ≠ .notApplicable)).isSome := by
      rw [List.find?_isSome]
      exact ⟨c a, List.mem_map_of_mem ha, by simpa using hc⟩
    obtain ⟨d, hd⟩ := Option.isSome_iff_exists.1 this
    rw [hd]; rfl

private theorem coh_target {env : Env} {ctx : Ctx} (hpip : StatelessPip ctx) {t : Option Target} {w w1 : World}
    {x} (hw : Coh env.re w) (h : targetMatch env t ctx w = (x, w1)) : Coh env.re w1 := by
  have := (Sim.targetMatch (L := fun _ _ => True) (envOK_refl env) (pipOK_stateless hpip) t
    (fun m _ => debugOK_refl env m) w w ⟨hw, hw, trivial⟩).2.1
  rwa [h] at this

/-- Two policies with the same header decide alike if their combinations do once the target
matches. -/
private theorem same_base {env : Env} {ctx : Ctx} (hpip : StatelessPip ctx) (hdr : Header) (p q : PolicyNode)
    (m n : EvalM Decision) (hp : p.evaluate env ctx = policyBaseEvaluate env hdr ctx m)
    (hq : q.evaluate env ctx = policyBaseEvaluate env hdr ctx n) (w : World) (hw : Coh env.re w)
    (h : ∀ w1, Coh env.re w1 → targetMatch env hdr.target ctx w = (.ok true, w1) →
      (p.evaluate env ctx w).1 = (q.evaluate env ctx w).1) :
    (p.evaluate env ctx w).1 = (q.evaluate env ctx w).1 := by
  rcases ht : targetMatch env hdr.target ctx w with ⟨x, w1⟩
  match x, ht with
  | .error e, ht => rw [hp, hq]; simp [policyBaseEvaluate, catchAll, run_bind_error ht]
  | .ok false, ht => rw [hp, hq]; simp [policyBaseEvaluate, catchAll, run_bind_ok ht]
  | .ok true, ht => exact h w1 (coh_target hpip hw ht) ht

private theorem same_policies {env : Env} {ctx : Ctx} (hpip : StatelessPip ctx) (hdr : Header)
    (ps ps' : List PolicyNode) (c : PolicyNode → Decision)
    (hc : ∀ (as : List PolicyNode) w, Coh env.re w →
      ∃ w', Runs (as.map fun p => p.evaluate env ctx) w (as.map c) w')
    (h : ∀ alg, hdr.alg = some alg → Spec.combinePolicies alg (ps.map c) = Spec.combinePolicies alg (ps'.map c))
    (w : World) (hw : Coh env.re w) :
    ((PolicyNode.policySet hdr ps).evaluate env ctx w).1 = ((PolicyNode.policySet hdr ps').evaluate env ctx w).1 := by
  refine same_base hpip hdr _ _ _ _ (by unfold PolicyNode.evaluate; rfl) (by unfold PolicyNode.evaluate; rfl) w hw ?_
  intro w1 hw1 ht
  obtain ⟨w2, h2⟩ := hc ps w1 hw1
  obtain ⟨w2', h2'⟩ := hc ps' w1 hw1
  cases ha : hdr.alg with
  | none => simp [PolicyNode.evaluate, policyBaseEvaluate, catchAll, run_bind_ok ht, ha, Xacml.combinePolicies]
  | some alg =>
    have h := h alg ha
    cases alg with
    | denyOverrides =>
      obtain ⟨w3, h3, _⟩ := C04_policy_deny_overrides env ctx hdr ps w w1 w2 _ ha ht h2
      obtain ⟨w3', h3', _⟩ := C04_policy_deny_overrides env ctx hdr ps' w w1 w2' _ ha ht h2'
      rw [h3, h3']; exact congrArg Except.ok h
    | permitOverrides =>
      obtain ⟨w3, h3, _⟩ := C05_policy_permit_overrides env ctx hdr ps w w1 w2 _ ha ht h2
      obtain ⟨w3', h3', _⟩ := C05_policy_permit_overrides env ctx hdr ps' w w1 w2' _ ha ht h2'
      rw [h3, h3']; exact congrArg Except.ok h
    | firstApplicable =>
      obtain ⟨w3, h3, _⟩ := C03_policy_first_applicable env ctx hdr ps w w1 w2 _ ha ht h2
      obtain ⟨w3', h3', _⟩ := C03_policy_first_applicable env ctx hdr ps' w w1 w2' _ ha ht h2'
      rw [h3, h3']; exact congrArg Except.ok h

private theorem same_decision {env : Env} {ctx : Ctx} (hpip : StatelessPip ctx) {p q : PolicyNode}
    (h : SaysTheSame p q) (w : World) (hw : Coh env.re w) :
    (p.evaluate env ctx w).1 = (q.evaluate env ctx w).1 := by
  obtain ⟨c, hc1, hc⟩ := constant_decisions (env := env) (fun p : PolicyNode => p.evaluate env ctx)
    (fun p w => policy_evaluate_ok env p ctx w)
    (fun p => Sim.policy (envOK_refl env) (pipOK_stateless hpip) p fun m _ => debugOK_refl env m)
  obtain ⟨e, _, he⟩ := constant_decisions (env := env) (fun r : Rule => r.evaluate env ctx)
    (fun r w => rule_evaluate_ok env r ctx w)
    (fun r => Sim.rule (envOK_refl env) (pipOK_stateless hpip) r fun m _ => debugOK_refl env m)
  induction h generalizing w with
  | refl => rfl
  | symm _ ih => exact (ih w hw).symm
  | trans _ _ ih1 ih2 => exact (ih1 w hw).trans (ih2 w hw)
  | rules hdr rules rules' halg heff hmem =>
    refine same_base hpip hdr _ _ _ _ (by unfold PolicyNode.evaluate; rfl) (by unfold PolicyNode.evaluate; rfl) w hw ?_
    intro w1 hw1 ht
    obtain ⟨w2, h2⟩ := he rules w1 hw1
    obtain ⟨w2', h2'⟩ := he rules' w1 hw1
    have heff' : ∀ r ∈ rules', r.effect ≠ none := fun r hr => heff r ((hmem r).2 hr)
    have hm := mem_map_congr e hmem
    have hz : ∀ x, x ∈ (rules.map (·.effect)).zip (rules.map e) ↔ x ∈ (rules'.map (·.effect)).zip (rules'.map e) := by
      intro x
      rw [mem_zip_map, mem_zip_map]
      simp only [hmem]
    rcases halg with halg | halg
    · obtain ⟨w3, h3, _⟩ := C01_rule_deny_overrides env ctx hdr rules w w1 w2 _ halg ht h2 heff
      obtain ⟨w3', h3', _⟩ := C01_rule_deny_overrides env ctx hdr rules' w w1 w2' _ halg ht h2' heff'
      rw [h3, h3']
      simp only [ruleDenyOverrides, hm, hz]
    · obtain ⟨w3, h3, _⟩ := C02_rule_permit_overrides env ctx hdr rules w w1 w2 _ halg ht h2 heff
      obtain ⟨w3', h3', _⟩ := C02_rule_permit_overrides env ctx hdr rules' w w1 w2' _ halg ht h2' heff'
      rw [h3, h3']
      simp only [rulePermitOverrides, hm, hz]
  | members hdr ps ps' halg hmem =>
    refine same_policies hpip hdr ps ps' c hc ?_ w hw
    intro alg ha
    have hm := mem_map_congr c hmem
    rcases halg with halg | halg <;> rw [halg] at ha <;> injection ha with ha <;> subst ha
    · simp only [Spec.combinePolicies, policyDenyOverrides, hm]
    · simp only [Spec.combinePolicies, policyPermitOverrides, hm]
  | laterRule hdr before after r halg hr =>
    refine same_base hpip hdr _ _ _ _ (by unfold PolicyNode.evaluate; rfl) (by unfold PolicyNode.evaluate; rfl) w hw ?_
    intro w1 hw1 ht
    obtain ⟨w2, h2⟩ := he (before ++ r :: after) w1 hw1
    obtain ⟨w2', h2'⟩ := he (before ++ after) w1 hw1
    obtain ⟨w3, h3, _⟩ := C03_rule_first_applicable env ctx hdr _ w w1 w2 _ halg ht h2
    obtain ⟨w3', h3', _⟩ := C03_rule_first_applicable env ctx hdr _ w w1 w2' _ halg ht h2'
    rw [h3, h3', first_repeated e before after r hr]
  | laterMember hdr before after p halg hp =>
    refine same_policies hpip hdr _ _ c hc ?_ w hw
    intro alg ha
    rw [halg] at ha; injection ha with ha; subst ha
    exact first_repeated c before after p hp
  | inside hdr before after p q _ ih =>
    refine same_policies hpip hdr _ _ c hc ?_ w hw
    intro alg _
    have : c p = c q := by
      have h1 := hc1 p w hw
      have h2 := hc1 q w hw
      rw [ih w hw, h2] at h1
      injection h1 with h1
      exact h1.symm
    simp only [List.map_append, List.map_cons, this]

/-- **C109.** Two policies that say the same, up to repetition, give the same response to every
request after every history, if the context handler answers equal questions equally. -/
theorem C109_repeating (env : Env) (ctx : Ctx) (p q : PolicyNode) (w : World) (hpip : StatelessPip ctx)
    (hw : History env.re w) (h : SaysTheSame p q) :
    (pdpEvaluate env (some p) ctx w).1 = (pdpEvaluate env (some q) ctx w).1 := by
  have := same_decision (env := env) hpip h w (history_coh hw)
  obtain ⟨d, w1, h1⟩ := policy_evaluate_ok env p ctx w
  obtain ⟨d', w1', h1'⟩ := policy_evaluate_ok env q ctx w
  rw [h1, h1'] at this
  injection this with this
  subst this
  simp [pdpEvaluate, PolicyNode.evaluateResponse, h1, h1']

section NonVacuity
open Samples

/-- A set of two equal policies in which a rule is repeated. -/
def Samples.verbose : PolicyNode :=
  .policySet (hdr .permitOverrides)
    [.policy (hdr .denyOverrides) [roleRule .permit "admin", roleRule .deny "guest", roleRule .permit "admin"],
     .policy (hdr .denyOverrides) [roleRule .permit "admin", roleRule .deny "guest", roleRule .permit "admin"]]

/-- The same said once. -/
def Samples.terse : PolicyNode :=
  .policySet (hdr .permitOverrides) [.policy (hdr .denyOverrides) [roleRule .deny "guest", roleRule .permit "admin"]]

/-- The hypotheses hold of a set with repetitions at two levels, and it permits. -/
example : SaysTheSame verbose terse ∧ History env.re start ∧ StatelessPip ctx ∧
    (terse.evaluate env ctx start).1 = .ok .permit := by
  refine ⟨?_, .start, ?_, rfl⟩
  · refine .trans (.members _ _ [.policy (hdr .denyOverrides)
      [roleRule .permit "admin", roleRule .deny "guest", roleRule .permit "admin"]] (.inr rfl) ?_) ?_
    · intro p; simp
    · refine .inside _ [] [] _ _ (.rules _ _ _ (.inl rfl) ?_ ?_)
      · intro r hr
        simp only [List.mem_cons, List.not_mem_nil, or_false] at hr
        rcases hr with rfl | rfl | rfl <;> (intro h; cases h)
      · intro r
        simp only [List.mem_cons, List.not_mem_nil, or_false]
        constructor
        · rintro (h | h | h) <;> simp [h]
        · rintro (h | h) <;> simp [h]
  · intro r hr pip hp; cases hr; cases hp

/-- With first-applicable, dropping a repetition. -/
example : SaysTheSame
    (.policy (hdr .firstApplicable) [roleRule .permit "guest", always .deny, roleRule .permit "guest"])
    (.policy (hdr .firstApplicable) [roleRule .permit "guest", always .deny]) :=
  .laterRule _ [roleRule .permit "guest", always .deny] [] _ rfl (by simp)

/-- With first-applicable, dropping the first of two equal rules may change the decision. -/
example :
    ((PolicyNode.policy (hdr .firstApplicable) [roleRule .permit "admin", always .deny, roleRule .permit "admin"]).evaluate
      env ctx w0).1 = .ok .permit ∧
    ((PolicyNode.policy (hdr .firstApplicable) [always .deny, roleRule .permit "admin"]).evaluate env ctx w0).1
      = .ok .deny := ⟨rfl, rfl⟩

/-- The hypothesis on the context handler is needed: one that answers differently the second time
makes a repeated rule count. -/
example :
    ((PolicyNode.policy (hdr .permitOverrides) [roleRule .permit "b", roleRule .permit "b"]).evaluate
      env (some fickle) w0).1 = .ok .permit ∧
    ((PolicyNode.policy (hdr .permitOverrides) [roleRule .permit "b"]).evaluate env (some fickle) w0).1
      = .ok .notApplicable := ⟨rfl, rfl⟩

end NonVacuity
end Xacml
