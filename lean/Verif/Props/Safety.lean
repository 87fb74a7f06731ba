import Verif.Props.Target

/-!
# C12: no Permit without a Permit rule that fired
-/
namespace Xacml
open Spec

/-- `PermitPath env ctx p w`: when `p` is evaluated from world `w`, there is a path from `p` down to
a rule such that every target on the path matches, and the rule has Effect Permit, a target that
matches, a condition that holds, and decides Permit. The siblings before it on the path are
evaluated first. -/
inductive PermitPath (env : Env) (ctx : Ctx) : PolicyNode → World → Prop
  | policy {hdr pre r post w wb ds w2 wt w3}
      (target : targetMatch env hdr.target ctx w = (.ok true, wb))
      (before : Runs (pre.map (Rule.evaluate env · ctx)) wb ds w2)
      (effect : r.effect = some .permit)
      (ruleTarget : targetMatch env r.target ctx w2 = (.ok true, wt))
      (condition : CondGives env ctx r.condition (fun x => ¬ Spec.RegardedFalse x) wt w3)
      (decided : r.evaluate env ctx w2 = (.ok .permit, w3)) :
      PermitPath env ctx (.policy hdr (pre ++ r :: post)) w
  | policySet {hdr pre p post w wb ds w2}
      (target : targetMatch env hdr.target ctx w = (.ok true, wb))
      (before : Runs (pre.map (PolicyNode.evaluate env ctx)) wb ds w2)
      (child : PermitPath env ctx p w2) :
      PermitPath env ctx (.policySet hdr (pre ++ p :: post)) w

mutual
/-- All rules of a policy tree. -/
def PolicyNode.allRules : PolicyNode → List Rule
  | .policy _ rules => rules
  | .policySet _ children => PolicyNode.allRulesList children
def PolicyNode.allRulesList : List PolicyNode → List Rule
  | [] => []
  | p :: ps => PolicyNode.allRules p ++ PolicyNode.allRulesList ps
end

/-- Some computation of the list, reached after the ones before it, gives `d`. -/
private def Reached (d : Decision) (cs : List (EvalM Decision)) (w : World) : Prop :=
  ∃ pre c post ds w2 w3, cs = pre ++ c :: post ∧ Runs pre w ds w2 ∧ c w2 = (.ok d, w3)

private theorem Reached.here {d c cs w w3} (h : c w = (.ok d, w3)) : Reached d (c :: cs) w :=
  ⟨[], c, cs, [], w, w3, rfl, .nil w, h⟩

private theorem Reached.there {d d' c cs w w1} (h : c w = (.ok d', w1)) (hr : Reached d cs w1) :
    Reached d (c :: cs) w := by
  obtain ⟨pre, c', post, ds, w2, w3, rfl, h1, h2⟩ := hr
  exact ⟨c :: pre, c', post, _, w2, w3, rfl, .cons h h1, h2⟩

private theorem denyOverridesRules_permit {cs : List RuleChild} {f : Flags} {w w'}
    (h : denyOverridesRules f cs w = (.ok .permit, w')) :
    f.other = true ∨ Reached .permit (cs.map RuleChild.run) w := by
  induction cs generalizing f w with
  | nil =>
    simp only [denyOverridesRules] at h
    cases hp : f.potential <;> cases ho : f.other <;> cases he : f.error <;> simp [hp, ho, he] at h ⊢
  | cons c cs ih =>
    simp only [denyOverridesRules] at h
    rw [run_bind_eq_ok] at h
    obtain ⟨d, w1, hc, h⟩ := h
    cases d with
    | deny => simp at h
    | permit => exact .inr (.here hc)
    | notApplicable => exact (ih h).imp id (.there hc)
    | indeterminate =>
      match he : c.effect with
      | none => simp [he] at h
      | some .deny => simp only [he] at h; exact (ih h).imp id (.there hc)
      | some .permit => simp only [he] at h; exact (ih h).imp id (.there hc)

private theorem permitOverridesRules_permit {cs : List RuleChild} {f : Flags} {w w'}
    (h : permitOverridesRules f cs w = (.ok .permit, w')) :
    Reached .permit (cs.map RuleChild.run) w := by
  induction cs generalizing f w with
  | nil =>
    simp only [permitOverridesRules] at h
    cases hp : f.potential <;> cases ho : f.other <;> cases he : f.error <;> simp [hp, ho, he] at h
  | cons c cs ih =>
    simp only [permitOverridesRules] at h
    rw [run_bind_eq_ok] at h
    obtain ⟨d, w1, hc, h⟩ := h
    cases d with
    | permit => exact .here hc
    | deny => exact .there hc (ih h)
    | notApplicable => exact .there hc (ih h)
    | indeterminate =>
      match he : c.effect with
      | none => simp [he] at h
      | some .deny => simp only [he] at h; exact .there hc (ih h)
      | some .permit => simp only [he] at h; exact .there hc (ih h)

private theorem firstApplicable_permit {cs : List (EvalM Decision)} {w w'}
    (h : Xacml.firstApplicable cs w = (.ok .permit, w')) : Reached .permit cs w := by
  induction cs generalizing w with
  | nil => simp [Xacml.firstApplicable] at h
  | cons c cs ih =>
    simp only [Xacml.firstApplicable] at h
    rw [run_bind_eq_ok] at h
    obtain ⟨d, w1, hc, h⟩ := h
    cases d with
    | permit => exact .here hc
    | deny => simp at h
    | notApplicable => exact .there hc (ih h)
    | indeterminate => simp at h

private theorem denyOverridesPolicies_permit {cs : List (EvalM Decision)} {p : Bool} {w w'}
    (h : denyOverridesPolicies p cs w = (.ok .permit, w')) : p = true ∨ Reached .permit cs w := by
  induction cs generalizing p w with
  | nil => cases p <;> simp [denyOverridesPolicies] at h ⊢
  | cons c cs ih =>
    simp only [denyOverridesPolicies] at h
    rw [run_bind_eq_ok] at h
    obtain ⟨d, w1, hc, h⟩ := h
    cases d with
    | permit => exact .inr (.here hc)
    | deny => simp at h
    | notApplicable => exact (ih h).imp id (.there hc)
    | indeterminate => simp at h

private theorem permitOverridesPolicies_permit {cs : List (EvalM Decision)} {e p : Bool} {w w'}
    (h : permitOverridesPolicies e p cs w = (.ok .permit, w')) : Reached .permit cs w := by
  induction cs generalizing e p w with
  | nil => cases p <;> cases e <;> simp [permitOverridesPolicies] at h
  | cons c cs ih =>
    simp only [permitOverridesPolicies] at h
    rw [run_bind_eq_ok] at h
    obtain ⟨d, w1, hc, h⟩ := h
    cases d with
    | permit => exact .here hc
    | deny => exact .there hc (ih h)
    | notApplicable => exact .there hc (ih h)
    | indeterminate => exact .there hc (ih h)

private theorem policyBase_permit {env hdr ctx w w'} {combine : EvalM Decision}
    (h : policyBaseEvaluate env hdr ctx combine w = (.ok .permit, w')) :
    ∃ wb, targetMatch env hdr.target ctx w = (.ok true, wb) ∧ combine wb = (.ok .permit, w') := by
  unfold policyBaseEvaluate catchAll at h
  rcases ht : targetMatch env hdr.target ctx w with ⟨e | b, wb⟩
  · simp [run_bind_error ht] at h
  · cases b with
    | false => simp [run_bind_ok ht] at h
    | true =>
      simp only [run_bind_ok ht, Bool.not_true, Bool.false_eq_true, if_false] at h
      rcases hc : combine wb with ⟨e | d, wc⟩
      · simp [hc] at h
      · simp [hc] at h; exact ⟨wb, rfl, by rw [hc, h.1, h.2]⟩

/-- A rule deciding Permit has Effect Permit, and its target and condition hold. -/
theorem rule_permit {env ctx r w w'} (h : Rule.evaluate env r ctx w = (.ok .permit, w')) :
    r.effect = some .permit ∧ ∃ wt, targetMatch env r.target ctx w = (.ok true, wt) ∧
      CondGives env ctx r.condition (fun x => ¬ Spec.RegardedFalse x) wt w' := by
  have he : r.effect = some .permit := by
    unfold Rule.evaluate catchAll Rule.body at h
    rcases ht : targetMatch env r.target ctx w with ⟨e | b, w1⟩
    · simp [run_bind_error ht] at h
    · simp only [run_bind_ok ht] at h
      cases b with
      | false => simp at h
      | true =>
        simp only [Bool.not_true, Bool.false_eq_true, if_false] at h
        have key : ∀ (m : EvalM PyVal), (match (m >>= fun status =>
            if status.truthy = true then
              match r.effect with
              | some e => pure e.toDecision
              | none => EvalM.throw .attributeError
            else pure .notApplicable : EvalM Decision) w1 with
            | (.ok d, w') => (Except.ok d, w')
            | (.error _, w') => (.ok .indeterminate, w')) = ((.ok .permit, w') : Except Exc Decision × World) →
            r.effect = some .permit := by
          intro m h
          rcases hm : m w1 with ⟨e | x, w2⟩
          · simp [run_bind_error hm] at h
          · simp only [run_bind_ok hm] at h
            cases hx : x.truthy with
            | false => simp [hx] at h
            | true =>
              match heq : r.effect with
              | none => simp [hx, heq] at h
              | some .deny => simp [hx, heq, Effect.toDecision] at h
              | some .permit => rfl
        cases hc : r.condition with
        | none => rw [hc] at h; exact key _ h
        | some c => rw [hc] at h; exact key _ h
  exact ⟨he, (C11_effect_iff_truthy env ctx r .permit w w' he).1 h⟩

private theorem permitPath_aux (env : Env) (ctx : Ctx) (n : Nat) :
    ∀ (p : PolicyNode), sizeOf p ≤ n → ∀ (w w' : World),
      p.evaluate env ctx w = (.ok .permit, w') → PermitPath env ctx p w := by
  induction n with
  | zero => intro p hp; cases p <;> simp at hp
  | succ n ih =>
    intro p hp w w' h
    cases p with
    | policy hdr rules =>
      simp only [PolicyNode.evaluate] at h
      obtain ⟨wb, ht, hc⟩ := policyBase_permit h
      have hr : Reached .permit (rules.map (Rule.evaluate env · ctx)) wb := by
        have hm : (rules.map (Rule.child env ctx)).map RuleChild.run
            = rules.map (Rule.evaluate env · ctx) := by simp [Rule.child, Function.comp_def]
        rw [← hm]
        unfold combineRules at hc
        match ha : hdr.alg with
        | none => simp [ha] at hc
        | some .denyOverrides =>
          simp only [ha] at hc
          rcases denyOverridesRules_permit hc with h | h
          · simp at h
          · exact h
        | some .permitOverrides => simp only [ha] at hc; exact permitOverridesRules_permit hc
        | some .firstApplicable => simp only [ha] at hc; exact firstApplicable_permit hc
      obtain ⟨pre, c, post, ds, w2, w3, hs, h1, h2⟩ := hr
      obtain ⟨pre', rest, rfl, rfl, hs'⟩ := List.map_eq_append_iff.1 hs
      obtain ⟨r, post', rfl, rfl, rfl⟩ := List.map_eq_cons_iff.1 hs'
      obtain ⟨he, wt, hrt, hcond⟩ := rule_permit h2
      exact .policy ht h1 he hrt hcond h2
    | policySet hdr children =>
      simp only [PolicyNode.evaluate] at h
      obtain ⟨wb, ht, hc⟩ := policyBase_permit h
      rw [evaluators_eq_map] at hc
      have hr : Reached .permit (children.map (PolicyNode.evaluate env ctx)) wb := by
        unfold combinePolicies at hc
        match ha : hdr.alg with
        | none => simp [ha] at hc
        | some .denyOverrides =>
          simp only [ha] at hc
          rcases denyOverridesPolicies_permit hc with h | h
          · simp at h
          · exact h
        | some .permitOverrides => simp only [ha] at hc; exact permitOverridesPolicies_permit hc
        | some .firstApplicable => simp only [ha] at hc; exact firstApplicable_permit hc
      obtain ⟨pre, c, post, ds, w2, w3, hs, h1, h2⟩ := hr
      obtain ⟨pre', rest, rfl, rfl, hs'⟩ := List.map_eq_append_iff.1 hs
      obtain ⟨p, post', rfl, rfl, rfl⟩ := List.map_eq_cons_iff.1 hs'
      refine .policySet ht h1 (ih p ?_ w2 w3 h2)
      have : sizeOf p < sizeOf (pre' ++ p :: post') := List.sizeOf_lt_of_mem (by simp)
      simp at hp this ⊢; omega

/-- C12: a Permit answer comes from a Permit rule that fired below matching targets only. -/
theorem C12_permit_has_witness (env : Env) (ctx : Ctx) (p : PolicyNode) (w w' : World) (resp : Response)
    (h : pdpEvaluate env (some p) ctx w = (.ok resp, w'))
    (hp : ∃ r ∈ resp.results, r.decision = .permit) : PermitPath env ctx p w := by
  obtain ⟨r, w1, h1, _, h2⟩ := C06_total env p ctx w
  rw [h] at h1
  simp only [Prod.mk.injEq, Except.ok.injEq] at h1
  obtain ⟨rfl, rfl⟩ := h1
  obtain ⟨r', hr', hd⟩ := hp
  simp at hr'; subst hr'
  rw [hd] at h2
  exact permitPath_aux env ctx (sizeOf p) p (Nat.le_refl _) w w' h2

private theorem mem_allRulesList {ps : List PolicyNode} {p : PolicyNode} {r : Rule} (hp : p ∈ ps)
    (hr : r ∈ p.allRules) : r ∈ PolicyNode.allRulesList ps := by
  induction ps with
  | nil => simp at hp
  | cons q ps ih =>
    simp only [PolicyNode.allRulesList, List.mem_append]
    rcases List.mem_cons.1 hp with rfl | hp
    · exact .inl hr
    · exact .inr (ih hp)

private theorem PermitPath.rule {env ctx p w} (h : PermitPath env ctx p w) :
    ∃ r ∈ p.allRules, r.effect = some .permit := by
  induction h with
  | policy _ _ he _ _ _ => exact ⟨_, by simp [PolicyNode.allRules], he⟩
  | policySet _ _ _ ih =>
    obtain ⟨r, hr, he⟩ := ih
    exact ⟨r, by unfold PolicyNode.allRules; exact mem_allRulesList (by simp) hr, he⟩

/-- C12: a tree without Permit rules never answers Permit. -/
theorem C12_no_permit_rule (env : Env) (ctx : Ctx) (p : PolicyNode) (w w' : World) (resp : Response)
    (hno : ∀ r ∈ p.allRules, r.effect ≠ some .permit)
    (h : pdpEvaluate env (some p) ctx w = (.ok resp, w')) :
    ∀ r ∈ resp.results, r.decision ≠ .permit := by
  intro r hr hd
  obtain ⟨r, hr, he⟩ := (C12_permit_has_witness env ctx p w w' resp h ⟨r, hr, hd⟩).rule
  exact hno r hr he

section NonVacuity
open Samples
/-- A nested policy set that answers Permit. -/
def permitTree : PolicyNode := .policySet (hdr .denyOverrides (some (roleTarget "staff")))
  [.policy (hdr .denyOverrides) [roleRule .deny "guest"],
   .policySet (hdr .firstApplicable) [.policy (hdr .permitOverrides) [roleRule .deny "admin", condRule]]]
example : ∃ resp, pdpEvaluate env (some permitTree) ctx w0 = (.ok resp, w0) ∧
    ∃ r ∈ resp.results, r.decision = .permit := ⟨_, rfl, by simp⟩
example : ∀ r ∈ (PolicyNode.policySet (hdr .firstApplicable)
    [.policy (hdr .denyOverrides) [roleRule .deny "guest", failing .deny]]).allRules, r.effect ≠ some .permit := by
  simp [PolicyNode.allRules, PolicyNode.allRulesList, roleRule, failing]
end NonVacuity

end Xacml
