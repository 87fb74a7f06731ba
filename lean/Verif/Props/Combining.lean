import Verif.Lemmas.Combining
import Verif.Spec.Samples

/-!
# C01–C05: combining algorithms

`targetMatch env hdr.target ctx w = (.ok true, w1)` says that the policy applies to the
request; `Runs cs w1 ds w2` says that evaluating all children in order gives `ds`
(children never raise, see `children_run`). The second half of each theorem says which
children are really evaluated: exactly those up to and including the deciding one.
-/
namespace Xacml
open Spec

/-- Rules and policies always return a decision, so the hypothesis `Runs` of the
theorems below can always be met. -/
theorem rules_run (env : Env) (ctx : Ctx) (rules : List Rule) (w : World) :
    ∃ ds w', Runs (rules.map (Rule.evaluate env · ctx)) w ds w' :=
  Runs.exists_of_ok (by
    intro c hc w
    obtain ⟨r, _, rfl⟩ := List.mem_map.1 hc
    exact rule_evaluate_ok env r ctx w) w

theorem children_run (env : Env) (ctx : Ctx) (ps : List PolicyNode) (w : World) :
    ∃ ds w', Runs (ps.map (PolicyNode.evaluate env ctx)) w ds w' :=
  Runs.exists_of_ok (by
    intro c hc w
    obtain ⟨p, _, rfl⟩ := List.mem_map.1 hc
    exact policy_evaluate_ok env p ctx w) w

private theorem policyBase_applicable {env hdr ctx w w1 w3 d} {combine : EvalM Decision}
    (ht : targetMatch env hdr.target ctx w = (.ok true, w1)) (hc : combine w1 = (.ok d, w3)) :
    policyBaseEvaluate env hdr ctx combine w = (.ok d, w3) := by
  simp [policyBaseEvaluate, catchAll, run_bind_ok ht, hc]

private theorem child_run_map (env : Env) (ctx : Ctx) (rules : List Rule) :
    (rules.map (Rule.child env ctx)).map RuleChild.run = rules.map (Rule.evaluate env · ctx) := by
  simp [Rule.child, Function.comp_def]

private theorem child_effect_map (env : Env) (ctx : Ctx) (rules : List Rule) :
    (rules.map (Rule.child env ctx)).map RuleChild.effect = rules.map (·.effect) := by
  simp [Rule.child, Function.comp_def]

/-- C01. -/
theorem C01_rule_deny_overrides (env : Env) (ctx : Ctx) (hdr : Header) (rules : List Rule)
    (w w1 w2 : World) (ds : List Decision)
    (halg : hdr.alg = some .denyOverrides)
    (happ : targetMatch env hdr.target ctx w = (.ok true, w1))
    (hrun : Runs (rules.map (Rule.evaluate env · ctx)) w1 ds w2)
    (heff : ∀ r ∈ rules, r.effect ≠ none) :
    ∃ w3, (PolicyNode.policy hdr rules).evaluate env ctx w
        = (.ok (ruleDenyOverrides (rules.map (·.effect)) ds), w3) ∧
      let k := evaluatedCount (· == .deny) ds
      Runs ((rules.map (Rule.evaluate env · ctx)).take k) w1 (ds.take k) w3 := by
  obtain ⟨w3, h1, h2⟩ := denyOverridesRules_spec (rules.map (Rule.child env ctx)) {}
    (by rw [child_run_map]; exact hrun) (by simpa [Rule.child] using heff)
  rw [child_run_map] at h2
  rw [child_effect_map] at h1
  refine ⟨w3, ?_, h2⟩
  unfold PolicyNode.evaluate
  refine policyBase_applicable happ ?_
  simp only [halg, combineRules, h1]
  simp [denyTable, ruleDenyOverrides]

/-- C02. -/
theorem C02_rule_permit_overrides (env : Env) (ctx : Ctx) (hdr : Header) (rules : List Rule)
    (w w1 w2 : World) (ds : List Decision)
    (halg : hdr.alg = some .permitOverrides)
    (happ : targetMatch env hdr.target ctx w = (.ok true, w1))
    (hrun : Runs (rules.map (Rule.evaluate env · ctx)) w1 ds w2)
    (heff : ∀ r ∈ rules, r.effect ≠ none) :
    ∃ w3, (PolicyNode.policy hdr rules).evaluate env ctx w
        = (.ok (rulePermitOverrides (rules.map (·.effect)) ds), w3) ∧
      let k := evaluatedCount (· == .permit) ds
      Runs ((rules.map (Rule.evaluate env · ctx)).take k) w1 (ds.take k) w3 := by
  obtain ⟨w3, h1, h2⟩ := permitOverridesRules_spec (rules.map (Rule.child env ctx)) {}
    (by rw [child_run_map]; exact hrun) (by simpa [Rule.child] using heff)
  rw [child_run_map] at h2
  rw [child_effect_map] at h1
  refine ⟨w3, ?_, h2⟩
  unfold PolicyNode.evaluate
  refine policyBase_applicable happ ?_
  simp only [halg, combineRules, h1]
  simp [permitTable, rulePermitOverrides]

/-- C03, rules. -/
theorem C03_rule_first_applicable (env : Env) (ctx : Ctx) (hdr : Header) (rules : List Rule)
    (w w1 w2 : World) (ds : List Decision)
    (halg : hdr.alg = some .firstApplicable)
    (happ : targetMatch env hdr.target ctx w = (.ok true, w1))
    (hrun : Runs (rules.map (Rule.evaluate env · ctx)) w1 ds w2) :
    ∃ w3, (PolicyNode.policy hdr rules).evaluate env ctx w
        = (.ok (Spec.firstApplicable ds), w3) ∧
      let k := evaluatedCount (· != .notApplicable) ds
      Runs ((rules.map (Rule.evaluate env · ctx)).take k) w1 (ds.take k) w3 := by
  obtain ⟨w3, h1, h2⟩ := firstApplicable_spec _ hrun
  refine ⟨w3, ?_, h2⟩
  unfold PolicyNode.evaluate
  refine policyBase_applicable happ ?_
  simp only [halg, combineRules, child_run_map, h1]

/-- C03, policies. -/
theorem C03_policy_first_applicable (env : Env) (ctx : Ctx) (hdr : Header) (ps : List PolicyNode)
    (w w1 w2 : World) (ds : List Decision)
    (halg : hdr.alg = some .firstApplicable)
    (happ : targetMatch env hdr.target ctx w = (.ok true, w1))
    (hrun : Runs (ps.map (PolicyNode.evaluate env ctx)) w1 ds w2) :
    ∃ w3, (PolicyNode.policySet hdr ps).evaluate env ctx w
        = (.ok (Spec.firstApplicable ds), w3) ∧
      let k := evaluatedCount (· != .notApplicable) ds
      Runs ((ps.map (PolicyNode.evaluate env ctx)).take k) w1 (ds.take k) w3 := by
  obtain ⟨w3, h1, h2⟩ := firstApplicable_spec _ hrun
  refine ⟨w3, ?_, h2⟩
  unfold PolicyNode.evaluate
  refine policyBase_applicable happ ?_
  simp only [halg, combinePolicies, evaluators_eq_map, h1]

/-- C04. -/
theorem C04_policy_deny_overrides (env : Env) (ctx : Ctx) (hdr : Header) (ps : List PolicyNode)
    (w w1 w2 : World) (ds : List Decision)
    (halg : hdr.alg = some .denyOverrides)
    (happ : targetMatch env hdr.target ctx w = (.ok true, w1))
    (hrun : Runs (ps.map (PolicyNode.evaluate env ctx)) w1 ds w2) :
    ∃ w3, (PolicyNode.policySet hdr ps).evaluate env ctx w
        = (.ok (policyDenyOverrides ds), w3) ∧
      let k := evaluatedCount (fun d => d == .deny || d == .indeterminate) ds
      Runs ((ps.map (PolicyNode.evaluate env ctx)).take k) w1 (ds.take k) w3 := by
  obtain ⟨w3, h1, h2⟩ := denyOverridesPolicies_spec _ false hrun
  refine ⟨w3, ?_, h2⟩
  unfold PolicyNode.evaluate
  refine policyBase_applicable happ ?_
  simp only [halg, combinePolicies, evaluators_eq_map, h1]
  simp [policyDenyOverrides]

/-- C05. -/
theorem C05_policy_permit_overrides (env : Env) (ctx : Ctx) (hdr : Header) (ps : List PolicyNode)
    (w w1 w2 : World) (ds : List Decision)
    (halg : hdr.alg = some .permitOverrides)
    (happ : targetMatch env hdr.target ctx w = (.ok true, w1))
    (hrun : Runs (ps.map (PolicyNode.evaluate env ctx)) w1 ds w2) :
    ∃ w3, (PolicyNode.policySet hdr ps).evaluate env ctx w
        = (.ok (policyPermitOverrides ds), w3) ∧
      let k := evaluatedCount (· == .permit) ds
      Runs ((ps.map (PolicyNode.evaluate env ctx)).take k) w1 (ds.take k) w3 := by
  obtain ⟨w3, h1, h2⟩ := permitOverridesPolicies_spec _ false false hrun
  refine ⟨w3, ?_, h2⟩
  unfold PolicyNode.evaluate
  refine policyBase_applicable happ ?_
  simp only [halg, combinePolicies, evaluators_eq_map, h1]
  simp [policyPermitOverrides]

private theorem denyOverridesRules_unset {f : Flags} {pre post : List RuleChild} {c : RuleChild}
    {w ds w1 w2} (hr : Runs (pre.map RuleChild.run) w ds w1) (hd : .deny ∉ ds)
    (hc : c.run w1 = (.ok .indeterminate, w2)) (he : c.effect = none) :
    ∃ e w3, denyOverridesRules f (pre ++ c :: post) w = (.error e, w3) := by
  induction pre generalizing f w ds with
  | nil =>
    cases hr
    exact ⟨_, w2, by simp [denyOverridesRules, run_bind_ok hc, he]; rfl⟩
  | cons a pre ih =>
    simp only [List.map_cons] at hr
    cases hr with
    | @cons _ _ _ d w3 ds _ ha hr =>
      have hd' : Decision.deny ∉ ds := fun h => hd (by simp [h])
      simp only [List.cons_append, denyOverridesRules, run_bind_ok ha]
      cases d with
      | deny => simp at hd
      | permit => exact ih hr hd'
      | notApplicable => exact ih hr hd'
      | indeterminate =>
        match heq : a.effect with
        | none => exact ⟨_, w3, rfl⟩
        | some .deny => exact ih hr hd'
        | some .permit => exact ih hr hd'

private theorem permitOverridesRules_unset {f : Flags} {pre post : List RuleChild} {c : RuleChild}
    {w ds w1 w2} (hr : Runs (pre.map RuleChild.run) w ds w1) (hd : .permit ∉ ds)
    (hc : c.run w1 = (.ok .indeterminate, w2)) (he : c.effect = none) :
    ∃ e w3, permitOverridesRules f (pre ++ c :: post) w = (.error e, w3) := by
  induction pre generalizing f w ds with
  | nil =>
    cases hr
    exact ⟨_, w2, by simp [permitOverridesRules, run_bind_ok hc, he]; rfl⟩
  | cons a pre ih =>
    simp only [List.map_cons] at hr
    cases hr with
    | @cons _ _ _ d w3 ds _ ha hr =>
      have hd' : Decision.permit ∉ ds := fun h => hd (by simp [h])
      simp only [List.cons_append, permitOverridesRules, run_bind_ok ha]
      cases d with
      | permit => simp at hd
      | deny => exact ih hr hd'
      | notApplicable => exact ih hr hd'
      | indeterminate =>
        match heq : a.effect with
        | none => exact ⟨_, w3, rfl⟩
        | some .deny => exact ih hr hd'
        | some .permit => exact ih hr hd'

/-- C01/C02 outside their hypothesis on effects: a rule built without an effect which is
Indeterminate (it can never return a decision, see `C11`), reached before the deciding rule,
makes the whole policy Indeterminate. -/
theorem C01_C02_unset_effect (env : Env) (ctx : Ctx) (hdr : Header) (pre post : List Rule) (r : Rule)
    (w w1 w2 w3 : World) (ds : List Decision)
    (halg : hdr.alg = some .denyOverrides ∧ .deny ∉ ds ∨ hdr.alg = some .permitOverrides ∧ .permit ∉ ds)
    (happ : targetMatch env hdr.target ctx w = (.ok true, w1))
    (hrun : Runs (pre.map (Rule.evaluate env · ctx)) w1 ds w2)
    (hr : r.evaluate env ctx w2 = (.ok .indeterminate, w3)) (he : r.effect = none) :
    ((PolicyNode.policy hdr (pre ++ r :: post)).evaluate env ctx w).1 = .ok .indeterminate := by
  have key : ∃ e w4, combineRules hdr.alg ((pre ++ r :: post).map (Rule.child env ctx)) w1
      = (.error e, w4) := by
    rw [List.map_append, List.map_cons]
    rcases halg with ⟨h, hd⟩ | ⟨h, hd⟩
    · rw [h]
      exact denyOverridesRules_unset (ds := ds) (by rw [child_run_map]; exact hrun) hd hr he
    · rw [h]
      exact permitOverridesRules_unset (ds := ds) (by rw [child_run_map]; exact hrun) hd hr he
  obtain ⟨e, w4, hk⟩ := key
  unfold PolicyNode.evaluate policyBaseEvaluate
  simp only [catchAll, run_bind_ok happ, Bool.not_true, Bool.false_eq_true, if_false, hk]

section NonVacuity
open Samples

/-- A policy with a target that matches, a rule that permits, one that fails and one that denies. -/
def sampleRules : List Rule := [roleRule .permit "staff", failing .deny, roleRule .deny "guest"]

example : targetMatch env (some (roleTarget "admin")) ctx w0 = (.ok true, w0) := by rfl
example : Runs (sampleRules.map (Rule.evaluate env · ctx)) w0
    [.permit, .indeterminate, .notApplicable] w0 :=
  .cons (by rfl) (.cons (by rfl) (.cons (by rfl) (.nil _)))
example : ∀ r ∈ sampleRules, r.effect ≠ none := by simp [sampleRules, roleRule, failing]
example : ruleDenyOverrides (sampleRules.map (·.effect)) [.permit, .indeterminate, .notApplicable]
    = .indeterminate := by decide
example : rulePermitOverrides (sampleRules.map (·.effect)) [.permit, .indeterminate, .notApplicable]
    = .permit := by decide
example : ((PolicyNode.policy (hdr .denyOverrides (some (roleTarget "admin"))) sampleRules).evaluate env ctx w0)
    = (.ok .indeterminate, w0) := by rfl
example : Runs ([PolicyNode.policy (hdr .denyOverrides) sampleRules,
      PolicyNode.policySet (hdr .firstApplicable) [PolicyNode.policy (hdr .denyOverrides) [always .deny]]].map
      (PolicyNode.evaluate env ctx)) w0 [.indeterminate, .deny] w0 :=
  .cons (by rfl) (.cons (by rfl) (.nil _))
/-- An effect-less failing rule. -/
example : (Rule.evaluate env { effect := none, target := none, condition := none } ctx w0)
    = (.ok .indeterminate, w0) := by rfl
end NonVacuity

end Xacml
