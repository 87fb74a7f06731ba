import Verif.Model.DecisionHeap
import Verif.Lemmas.Monad
import Verif.Spec.Samples

/-!
# C28–C30: decision constants, status, obligations
-/
namespace Xacml

/-! ## Refinement: with untouched constants, object evaluation agrees with value evaluation -/

/-- The constants have their own values. -/
def Pristine (w : HWorld) : Prop := ∀ c, w.heap.consts c = c

/-- `m` (on objects) does what `n` (on values) does, and leaves the constants alone. -/
def Refines (m : HM DecRef) (n : EvalM Decision) : Prop :=
  ∀ w, Pristine w → Pristine (m w).2 ∧ (m w).2.world = (n w.world).2 ∧
    (match (n w.world).1 with
     | .ok d => ∃ r, (m w).1 = .ok r ∧ (m w).2.heap.value r = d
     | .error e => (m w).1 = .error e)

private theorem hbind {α β} (m : HM α) (f : α → HM β) (w : HWorld) :
    (m >>= f) w = match m w with
      | (.ok a, w') => f a w'
      | (.error e, w') => (.error e, w') := rfl

private theorem refines_const (d : Decision) : Refines (pure (.const d)) (pure d) :=
  fun w hw => ⟨hw, rfl, _, rfl, hw d⟩

private theorem refines_throw (e : Exc) : Refines (HM.throw e) (EvalM.throw e) :=
  fun _ hw => ⟨hw, rfl, rfl⟩

private theorem refines_alloc (d : Decision) : Refines (HM.alloc d) (pure d) := by
  intro w hw
  refine ⟨hw, rfl, _, rfl, ?_⟩
  simp [HM.alloc, Heap.value]

private theorem refines_lift {α} (m : EvalM α) {f : α → HM DecRef} {g : α → EvalM Decision}
    (h : ∀ a, Refines (f a) (g a)) : Refines (HM.lift m >>= f) (m >>= g) := by
  intro w hw
  rw [hbind, run_bind]
  simp only [HM.lift]
  rcases hm : m w.world with ⟨x, w'⟩
  cases x with
  | ok a => exact h a { w with world := w' } hw
  | error e => exact ⟨hw, rfl, rfl⟩

private theorem refines_catchAll {m n} (h : Refines m n) : Refines (HM.catchAll m) (catchAll n) := by
  intro w hw
  obtain ⟨h1, h2, h3⟩ := h w hw
  simp only [HM.catchAll, catchAll]
  rcases hm : m w with ⟨x, w1⟩
  rcases hn : n w.world with ⟨y, w2⟩
  rw [hm, hn] at h2
  rw [hm] at h1
  rw [hm, hn] at h3
  simp only at h1 h2 h3
  cases y with
  | ok d =>
    obtain ⟨r, hr, hv⟩ := h3
    subst hr
    exact ⟨h1, h2, r, rfl, hv⟩
  | error e =>
    subst h3
    exact ⟨h1, h2, _, rfl, h1 _⟩

private theorem refines_rule (env : Env) (r : Rule) (ctx : Ctx) :
    Refines (r.evaluateH env ctx) (r.evaluate env ctx) := by
  unfold Rule.evaluateH Rule.evaluate
  refine refines_catchAll ?_
  unfold Rule.body
  refine refines_lift _ fun tm => ?_
  cases tm with
  | false => exact refines_const _
  | true =>
    have tail : ∀ st : PyVal, Refines
        (if st.truthy then (match r.effect with
          | some e => HM.alloc e.toDecision
          | none => HM.throw .attributeError) else pure (.const .notApplicable))
        (if st.truthy then (match r.effect with
          | some e => pure e.toDecision
          | none => EvalM.throw .attributeError) else pure .notApplicable) := by
      intro st
      split
      · split
        · exact refines_alloc _
        · exact refines_throw _
      · exact refines_const _
    cases hc : r.condition with
    | none => exact refines_lift _ tail
    | some c => exact refines_lift _ tail

/-- Bind on a child that refines: the comparisons see the decision's own value. -/
private theorem refines_child {m n} (h : Refines m n) {f : DecRef → HM DecRef} {g : Decision → EvalM Decision}
    (hf : ∀ r w, Pristine w → Pristine (f r w).2 ∧ (f r w).2.world = (g (w.heap.value r) w.world).2 ∧
      (match (g (w.heap.value r) w.world).1 with
       | .ok d => ∃ r', (f r w).1 = .ok r' ∧ (f r w).2.heap.value r' = d
       | .error e => (f r w).1 = .error e)) : Refines (m >>= f) (n >>= g) := by
  intro w hw
  obtain ⟨h1, h2, h3⟩ := h w hw
  rw [hbind, run_bind]
  rcases hm : m w with ⟨x, w1⟩
  rcases hn : n w.world with ⟨y, w2⟩
  rw [hm, hn] at h2
  rw [hm] at h1
  rw [hm, hn] at h3
  simp only at h1 h2 h3
  cases y with
  | ok d =>
    obtain ⟨r, hr, hv⟩ := h3
    subst hr hv h2
    exact hf r w1 h1
  | error e =>
    subst h3 h2
    exact ⟨h1, rfl, rfl⟩

private theorem isConst_eq (r : DecRef) (c : Decision) (w : HWorld) (hw : Pristine w) :
    HM.isConst r c w = (.ok (w.heap.value r == c), w) := by
  simp [HM.isConst, hw c]

private theorem isConst_step (r : DecRef) (c : Decision) (x y : HM DecRef) (w : HWorld) (hw : Pristine w) :
    (do let b ← HM.isConst r c; if b = true then x else y : HM DecRef) w
      = if w.heap.value r = c then x w else y w := by
  rw [hbind, isConst_eq _ _ w hw]
  by_cases h : w.heap.value r = c <;> simp [h]

private theorem effectIsConst_step (e : Effect) (c : Decision) (x y : HM DecRef) (w : HWorld) (hw : Pristine w) :
    (do let b ← effectIsConst (some e) c; if b = true then x else y : HM DecRef) w
      = if e.toDecision = c then x w else y w := by
  rw [hbind]
  simp only [effectIsConst, hw c]
  by_cases h : e.toDecision = c <;> simp [h]

private inductive RefList : List (HM DecRef) → List (EvalM Decision) → Prop
  | nil : RefList [] []
  | cons {m n ms ns} : Refines m n → RefList ms ns → RefList (m :: ms) (n :: ns)

private inductive RefRules : List RuleChildH → List RuleChild → Prop
  | nil : RefRules [] []
  | cons {c c' cs cs'} : c.effect = c'.effect → Refines c.run c'.run → RefRules cs cs' →
      RefRules (c :: cs) (c' :: cs')

private theorem RefRules.runs {cs cs'} (h : RefRules cs cs') :
    RefList (cs.map RuleChildH.run) (cs'.map RuleChild.run) := by
  induction h with
  | nil => exact .nil
  | cons _ h _ ih => exact .cons h ih

private theorem ref_firstApplicable {ms ns} (h : RefList ms ns) :
    Refines (firstApplicableH ms) (firstApplicable ns) := by
  induction h with
  | nil => exact refines_const _
  | cons h _ ih =>
    unfold firstApplicableH firstApplicable
    refine refines_child h fun r w hw => ?_
    simp only [isConst_step _ _ _ _ w hw]
    cases w.heap.value r <;> first | exact ih w hw | exact refines_const _ w hw

private theorem ref_denyPolicies {ms ns} (h : RefList ms ns) (b : Bool) :
    Refines (denyOverridesPoliciesH b ms) (denyOverridesPolicies b ns) := by
  induction h generalizing b with
  | nil => cases b <;> exact refines_const _
  | cons h _ ih =>
    unfold denyOverridesPoliciesH denyOverridesPolicies
    refine refines_child h fun r w hw => ?_
    simp only [isConst_step _ _ _ _ w hw]
    cases w.heap.value r <;> first | exact ih _ w hw | exact refines_const _ w hw

private theorem ref_permitPolicies {ms ns} (h : RefList ms ns) (a b : Bool) :
    Refines (permitOverridesPoliciesH a b ms) (permitOverridesPolicies a b ns) := by
  induction h generalizing a b with
  | nil => cases a <;> cases b <;> exact refines_const _
  | cons h _ ih =>
    unfold permitOverridesPoliciesH permitOverridesPolicies
    refine refines_child h fun r w hw => ?_
    simp only [isConst_step _ _ _ _ w hw]
    cases w.heap.value r <;> first | exact ih _ _ w hw | exact refines_const _ w hw

private theorem ref_denyRules {cs cs'} (h : RefRules cs cs') (f : Flags) :
    Refines (denyOverridesRulesH f cs) (denyOverridesRules f cs') := by
  induction h generalizing f with
  | nil =>
    unfold denyOverridesRulesH denyOverridesRules
    obtain ⟨a, b, c⟩ := f
    cases a <;> cases b <;> cases c <;> exact refines_const _
  | @cons c c' cs cs' he h _ ih =>
    unfold denyOverridesRulesH denyOverridesRules
    refine refines_child h fun r w hw => ?_
    simp only [isConst_step _ _ _ _ w hw, he]
    cases w.heap.value r with
    | permit => exact ih _ w hw
    | deny => exact refines_const _ w hw
    | notApplicable => exact ih _ w hw
    | indeterminate =>
      match hc : c'.effect with
      | none => exact refines_throw _ w hw
      | some .deny => simp only [effectIsConst_step _ _ _ _ w hw]; exact ih _ w hw
      | some .permit => simp only [effectIsConst_step _ _ _ _ w hw]; exact ih _ w hw

private theorem ref_permitRules {cs cs'} (h : RefRules cs cs') (f : Flags) :
    Refines (permitOverridesRulesH f cs) (permitOverridesRules f cs') := by
  induction h generalizing f with
  | nil =>
    unfold permitOverridesRulesH permitOverridesRules
    obtain ⟨a, b, c⟩ := f
    cases a <;> cases b <;> cases c <;> exact refines_const _
  | @cons c c' cs cs' he h _ ih =>
    unfold permitOverridesRulesH permitOverridesRules
    refine refines_child h fun r w hw => ?_
    simp only [isConst_step _ _ _ _ w hw, he]
    cases w.heap.value r with
    | permit => exact refines_const _ w hw
    | deny => exact ih _ w hw
    | notApplicable => exact ih _ w hw
    | indeterminate =>
      match hc : c'.effect with
      | none => simp only [effectIsPermitStr]; exact refines_throw _ w hw
      | some .deny => simp only [effectIsPermitStr]; exact ih _ w hw
      | some .permit => simp only [effectIsPermitStr]; exact ih _ w hw

private theorem ref_rules (env : Env) (ctx : Ctx) (rules : List Rule) :
    RefRules (rules.map (Rule.childH env ctx)) (rules.map (Rule.child env ctx)) := by
  induction rules with
  | nil => exact .nil
  | cons r rs ih => exact .cons rfl (refines_rule env r ctx) ih

private theorem ref_base (env : Env) (hdr : Header) (ctx : Ctx) {m n} (h : Refines m n) :
    Refines (policyBaseEvaluateH env hdr ctx m) (policyBaseEvaluate env hdr ctx n) := by
  unfold policyBaseEvaluateH policyBaseEvaluate
  refine refines_catchAll (refines_lift _ fun tm => ?_)
  cases tm with
  | false => exact refines_const _
  | true => exact h

mutual
private theorem ref_policy (env : Env) (ctx : Ctx) :
    (p : PolicyNode) → Refines (p.evaluateH env ctx) (p.evaluate env ctx)
  | .policy hdr rules => by
    unfold PolicyNode.evaluateH PolicyNode.evaluate
    refine ref_base env hdr ctx ?_
    unfold combineRulesH combineRules
    cases hdr.alg with
    | none => exact refines_throw _
    | some alg =>
      cases alg with
      | denyOverrides => exact ref_denyRules (ref_rules env ctx rules) _
      | permitOverrides => exact ref_permitRules (ref_rules env ctx rules) _
      | firstApplicable => exact ref_firstApplicable (ref_rules env ctx rules).runs
  | .policySet hdr ps => by
    unfold PolicyNode.evaluateH PolicyNode.evaluate
    refine ref_base env hdr ctx ?_
    have h := ref_policies env ctx ps
    unfold combinePoliciesH combinePolicies
    cases hdr.alg with
    | none => exact refines_throw _
    | some alg =>
      cases alg with
      | denyOverrides => exact ref_denyPolicies h _
      | permitOverrides => exact ref_permitPolicies h _ _
      | firstApplicable => exact ref_firstApplicable h
private theorem ref_policies (env : Env) (ctx : Ctx) :
    (ps : List PolicyNode) → RefList (PolicyNode.evaluatorsH env ctx ps) (PolicyNode.evaluators env ctx ps)
  | [] => by unfold PolicyNode.evaluatorsH PolicyNode.evaluators; exact .nil
  | p :: ps => by
    unfold PolicyNode.evaluatorsH PolicyNode.evaluators
    exact .cons (ref_policy env ctx p) (ref_policies env ctx ps)
end

/-! ## C28 -/

private theorem pdp_refines (env : Env) (p : PolicyNode) (ctx : Ctx) (w : HWorld) (hw : Pristine w) :
    Pristine (pdpDecisionH env p ctx w).2 ∧
    ∃ r d w', (pdpDecisionH env p ctx w).1 = .ok r ∧ (pdpDecisionH env p ctx w).2.heap.value r = d ∧
      pdpEvaluate env (some p) ctx w.world = (.ok { results := [{ decision := d, status := .ok }] }, w') ∧
      (pdpDecisionH env p ctx w).2.world = w' := by
  have hw' : Pristine (HM.alloc (w.heap.consts .notApplicable) w).2 := hw
  obtain ⟨h1, h2, h3⟩ := ref_policy env ctx p _ hw'
  have hworld : (HM.alloc (w.heap.consts .notApplicable) w).2.world = w.world := rfl
  rw [hworld] at h2 h3
  obtain ⟨d, w1, hd⟩ := policy_evaluate_ok env p ctx w.world
  rw [hd] at h2 h3
  obtain ⟨r, hr, hv⟩ := h3
  simp only [pdpDecisionH]
  rcases ha : HM.alloc (w.heap.consts .notApplicable) w with ⟨x, w2⟩
  have hx : ∃ r0, x = .ok r0 := by simp only [HM.alloc, Prod.mk.injEq] at ha; exact ⟨_, ha.1.symm⟩
  obtain ⟨r0, rfl⟩ := hx
  rw [ha] at h1 h2 hr hv
  simp only at h1 h2 hr hv ⊢
  rcases he : p.evaluateH env ctx w2 with ⟨y, w3⟩
  rw [he] at h1 h2 hr hv
  simp only at h1 h2 hr hv
  subst hr
  refine ⟨h1, r, d, w1, rfl, hv, ?_, h2⟩
  simp [pdpEvaluate, PolicyNode.evaluateResponse, hd, Result.createInitialised]

/-- C28 is violated: a caller that changes the decision in the response it received changes the
constant NOT_APPLICABLE; after that a policy that does not apply to the request answers Permit. -/
theorem C28_violated :
    ∃ (env : Env) (p : PolicyNode) (ctx : Ctx) (r : DecRef),
      let w0 : HWorld := ⟨⟨[], []⟩, .initial⟩
      (∃ w1, pdpDecisionH env p ctx w0 = (.ok r, w1) ∧ w1.heap.value r = .notApplicable) ∧
      let w2 := pdpRun w0 [.evaluate env p ctx, .assign r (.str "Permit")]
      ∃ r' w3, pdpDecisionH env p ctx w2 = (.ok r', w3) ∧ w3.heap.value r' = .permit :=
  ⟨Samples.env, .policy (Samples.hdr .denyOverrides (some (Samples.roleTarget "nobody"))) [Samples.always .permit],
    Samples.ctx, .const .notApplicable, ⟨_, rfl, rfl⟩, _, _, rfl, rfl⟩

/-- C28 is violated for policies that do apply, too: once a caller has changed the Permit it received to Deny,
the same policy no longer answers Permit to the same request. -/
theorem C28_violated_permit :
    ∃ (env : Env) (p : PolicyNode) (ctx : Ctx) (r : DecRef),
      let w0 : HWorld := ⟨⟨[], []⟩, .initial⟩
      (∃ w1, pdpDecisionH env p ctx w0 = (.ok r, w1) ∧ w1.heap.value r = .permit) ∧
      let w2 := pdpRun w0 [.evaluate env p ctx, .assign r (.str "Deny")]
      ∃ r' w3, pdpDecisionH env p ctx w2 = (.ok r', w3) ∧ w3.heap.value r' = .notApplicable :=
  ⟨Samples.env, .policy (Samples.hdr .denyOverrides none) [Samples.always .permit],
    Samples.ctx, .const .permit, ⟨_, rfl, rfl⟩, _, _, rfl, rfl⟩

/-- The object exists. -/
def Heap.Has (h : Heap) : DecRef → Prop
  | .const _ => True
  | .fresh n => n < h.fresh.length

/-- The decision a value stands for when it is assigned: one of the four texts, or the value of another
decision. -/
def DecArg.Names (h : Heap) (x : DecArg) (d : Decision) : Prop :=
  (x = .str "Permit" ∧ d = .permit) ∨ (x = .str "Deny" ∧ d = .deny) ∨
  (x = .str "Indeterminate" ∧ d = .indeterminate) ∨ (x = .str "NotApplicable" ∧ d = .notApplicable) ∨
  ∃ r, x = .decision r ∧ d = h.value r

/-- C28, assignments: assigning to a decision changes that decision and no other, and only if the value
assigned is the text of a decision or a decision; all other assignments raise and change nothing. -/
theorem C28_assign (h : Heap) (r : DecRef) (x : DecArg) (hr : h.Has r) :
    (∀ d, x.Names h d → (h.assign r x).1 = .ok () ∧ (h.assign r x).2.value r = d ∧
      ∀ r', r' ≠ r → (h.assign r x).2.value r' = h.value r') ∧
    ((∀ d, ¬ x.Names h d) → (∃ e, (h.assign r x).1 = .error e) ∧ (h.assign r x).2 = h) := by
  have put : ∀ d, let h' : Heap := match r with
      | .const c => { h with consts := fun c' => if c' = c then d else h.consts c' }
      | .fresh n => { h with fresh := h.fresh.set n d }
      h'.value r = d ∧ ∀ r', r' ≠ r → h'.value r' = h.value r' := by
    intro d
    cases r with
    | const c =>
      refine ⟨by simp [Heap.value], fun r' hne => ?_⟩
      cases r' with
      | const c' =>
        have hc : c' ≠ c := fun e => hne (by rw [e])
        simp [Heap.value, hc]
      | fresh n => rfl
    | fresh n =>
      have hn : n < h.fresh.length := hr
      refine ⟨by simp [Heap.value, List.getD, hn], fun r' hne => ?_⟩
      cases r' with
      | const c' => rfl
      | fresh m =>
        have hm : n ≠ m := fun e => hne (e ▸ rfl)
        simp [Heap.value, List.getD, hm]
  constructor
  · rintro d (⟨rfl, rfl⟩ | ⟨rfl, rfl⟩ | ⟨rfl, rfl⟩ | ⟨rfl, rfl⟩ | ⟨r', rfl, rfl⟩) <;>
      exact ⟨rfl, put _⟩
  · intro hx
    cases x with
    | str s =>
      have hs : Decision.ofString s = none := by
        unfold Decision.ofString
        split
        · exact absurd (.inl ⟨rfl, rfl⟩) (hx .permit)
        · exact absurd (.inr (.inl ⟨rfl, rfl⟩)) (hx .deny)
        · exact absurd (.inr (.inr (.inl ⟨rfl, rfl⟩))) (hx .indeterminate)
        · exact absurd (.inr (.inr (.inr (.inl ⟨rfl, rfl⟩)))) (hx .notApplicable)
        · rfl
      simp [Heap.assign, hs]
    | decision r' => exact absurd (.inr (.inr (.inr (.inr ⟨r', rfl, rfl⟩)))) (hx (h.value r'))
    | other => exact ⟨⟨_, rfl⟩, rfl⟩

example : (Heap.initial.Has (.const .permit)) ∧ (DecArg.str "Deny").Names .initial .deny ∧
    ∀ d, ¬ (DecArg.str "deny").Names .initial d := by
  refine ⟨trivial, .inr (.inl ⟨rfl, rfl⟩), ?_⟩
  rintro d (⟨h, -⟩ | ⟨h, -⟩ | ⟨h, -⟩ | ⟨h, -⟩ | ⟨r, h, -⟩) <;> simp at h

/-- C28, partial: histories in which no caller assigns to a decision constant (assignments to
decisions created by the caller, and failing assignments, are allowed): every response carries the
decision of the value model. (Missing: assignments to response decisions, see `C28_violated`.) -/
theorem C28_partial (es : List PdpEvent) (w : HWorld) (hw : Pristine w)
    (hes : ∀ e ∈ es, ∀ c x, e = .assign (.const c) x → ∃ s, x = .str s ∧ Decision.ofString s = none)
    (env : Env) (p : PolicyNode) (ctx : Ctx) :
    ∃ r d w' w'', pdpDecisionH env p ctx (pdpRun w es) = (.ok r, w') ∧ w'.heap.value r = d ∧
      pdpEvaluate env (some p) ctx (pdpRun w es).world
        = (.ok { results := [{ decision := d, status := .ok }] }, w'') := by
  have hp : Pristine (pdpRun w es) := by
    induction es generalizing w with
    | nil => exact hw
    | cons e es ih =>
      refine ih (PdpEvent.step w e) ?_ fun e' he' => hes e' (by simp [he'])
      cases e with
      | evaluate env p ctx => exact (pdp_refines env p ctx w hw).1
      | assign r x =>
        cases r with
        | const c =>
          obtain ⟨s, rfl, hs⟩ := hes _ (by simp) c x rfl
          simp only [PdpEvent.step, Heap.assign, hs]
          exact hw
        | fresh n =>
          simp only [PdpEvent.step, Heap.assign]
          cases x with
          | str s => simp only; split <;> exact hw
          | decision r' => exact hw
          | other => exact hw
  obtain ⟨_, r, d, w', h1, h2, h3, _⟩ := pdp_refines env p ctx _ hp
  exact ⟨r, d, _, w', Prod.ext h1 rfl, h2, h3⟩

/-- Why C28 fails: every response of a policy or policy set shares one of the four constants. -/
theorem C28_responses_share_constants (env : Env) (p : PolicyNode) (ctx : Ctx) (w w' : HWorld) (r : DecRef)
    (h : p.evaluateH env ctx w = (.ok r, w')) : ∃ c, r = .const c := by
  have isC : ∀ (m : HM DecRef), (∀ w w' r, m w = (.ok r, w') → ∃ c, r = .const c) →
      ∀ w w' r, HM.catchAll m w = (.ok r, w') → ∃ c, r = .const c := by
    intro m hm w w' r h
    simp only [HM.catchAll] at h
    rcases hx : m w with ⟨x, w1⟩
    rw [hx] at h
    cases x with
    | ok d => simp only [Prod.mk.injEq, Except.ok.injEq] at h; rw [← h.1]; exact hm w w1 d hx
    | error e => simp only [Prod.mk.injEq, Except.ok.injEq] at h; exact ⟨_, h.1.symm⟩
  have bindC : ∀ {α} (m : HM α) (f : α → HM DecRef),
      (∀ a w w' r, f a w = (.ok r, w') → ∃ c, r = .const c) →
      ∀ w w' r, (m >>= f) w = (.ok r, w') → ∃ c, r = .const c := by
    intro α m f hf w w' r h
    rw [hbind] at h
    rcases hx : m w with ⟨x, w1⟩
    rw [hx] at h
    cases x with
    | ok a => exact hf a w1 w' r h
    | error e => simp at h
  have pureC : ∀ c w w' r, (pure (.const c) : HM DecRef) w = (.ok r, w') → ∃ c, r = .const c := by
    intro c w w' r h
    have h1 := congrArg Prod.fst h
    have h2 : (Except.ok (.const c) : Except Exc DecRef) = .ok r := h1
    injection h2 with h2; exact ⟨c, h2.symm⟩
  have throwC : ∀ e w w' r, (HM.throw e : HM DecRef) w = (.ok r, w') → ∃ c, r = .const c := by
    intro e w w' r h; simp [HM.throw] at h
  have first : ∀ ms w w' r, firstApplicableH ms w = (.ok r, w') → ∃ c, r = .const c := by
    intro ms
    induction ms with
    | nil => exact pureC _
    | cons m ms ih =>
      unfold firstApplicableH
      refine bindC _ _ fun d => bindC _ _ fun b => ?_
      split
      · exact pureC _
      · refine bindC _ _ fun b => ?_
        split
        · exact pureC _
        · refine bindC _ _ fun b => ?_
          split
          · exact ih
          · refine bindC _ _ fun b => ?_
            split
            · exact pureC _
            · exact ih
  have denyP : ∀ ms b w w' r, denyOverridesPoliciesH b ms w = (.ok r, w') → ∃ c, r = .const c := by
    intro ms
    induction ms with
    | nil => intro b; cases b <;> exact pureC _
    | cons m ms ih =>
      intro b
      unfold denyOverridesPoliciesH
      refine bindC _ _ fun d => bindC _ _ fun b => ?_
      split
      · exact pureC _
      · refine bindC _ _ fun b => ?_
        split
        · exact ih _
        · refine bindC _ _ fun b => ?_
          split
          · exact ih _
          · refine bindC _ _ fun b => ?_
            split
            · exact pureC _
            · exact ih _
  have permitP : ∀ ms a b w w' r, permitOverridesPoliciesH a b ms w = (.ok r, w') → ∃ c, r = .const c := by
    intro ms
    induction ms with
    | nil => intro a b; cases a <;> cases b <;> exact pureC _
    | cons m ms ih =>
      intro a b
      unfold permitOverridesPoliciesH
      refine bindC _ _ fun d => bindC _ _ fun b => ?_
      split
      · exact ih _ _
      · refine bindC _ _ fun b => ?_
        split
        · exact pureC _
        · refine bindC _ _ fun b => ?_
          split
          · exact ih _ _
          · refine bindC _ _ fun b => ?_
            split
            · exact ih _ _
            · exact ih _ _
  have denyR : ∀ ms f w w' r, denyOverridesRulesH f ms w = (.ok r, w') → ∃ c, r = .const c := by
    intro ms
    induction ms with
    | nil =>
      intro ⟨a, b, c⟩
      unfold denyOverridesRulesH
      cases a <;> cases b <;> cases c <;> exact pureC _
    | cons m ms ih =>
      intro f
      unfold denyOverridesRulesH
      refine bindC _ _ fun d => bindC _ _ fun b => ?_
      split
      · exact pureC _
      · refine bindC _ _ fun b => ?_
        split
        · exact ih _
        · refine bindC _ _ fun b => ?_
          split
          · exact ih _
          · refine bindC _ _ fun b => ?_
            split
            · refine bindC _ _ fun b => ?_
              split
              · exact ih _
              · exact ih _
            · exact ih _
  have permitR : ∀ ms f w w' r, permitOverridesRulesH f ms w = (.ok r, w') → ∃ c, r = .const c := by
    intro ms
    induction ms with
    | nil =>
      intro ⟨a, b, c⟩
      unfold permitOverridesRulesH
      cases a <;> cases b <;> cases c <;> exact pureC _
    | cons m ms ih =>
      intro f
      unfold permitOverridesRulesH
      refine bindC _ _ fun d => bindC _ _ fun b => ?_
      split
      · exact ih _
      · refine bindC _ _ fun b => ?_
        split
        · exact pureC _
        · refine bindC _ _ fun b => ?_
          split
          · exact ih _
          · refine bindC _ _ fun b => ?_
            split
            · refine bindC _ _ fun b => ?_
              split
              · exact ih _
              · exact ih _
            · exact ih _
  cases p with
  | policy hdr rules =>
    unfold PolicyNode.evaluateH policyBaseEvaluateH at h
    refine isC _ (bindC _ _ fun tm => ?_) _ _ _ h
    split
    · exact pureC _
    · unfold combineRulesH
      cases hdr.alg with
      | none => exact throwC _
      | some a =>
        cases a with
        | denyOverrides => exact denyR _ _
        | permitOverrides => exact permitR _ _
        | firstApplicable => exact first _
  | policySet hdr ps =>
    unfold PolicyNode.evaluateH policyBaseEvaluateH at h
    refine isC _ (bindC _ _ fun tm => ?_) _ _ _ h
    split
    · exact pureC _
    · unfold combinePoliciesH
      cases hdr.alg with
      | none => exact throwC _
      | some a =>
        cases a with
        | denyOverrides => exact denyP _ _
        | permitOverrides => exact permitP _ _ _
        | firstApplicable => exact first _

section NonVacuity
open Samples
example : Pristine ⟨⟨[], []⟩, .initial⟩ := fun _ => rfl
/-- A history with evaluations, an assignment to an object of the caller's own and a rejected one. -/
example : ∀ e ∈ [PdpEvent.evaluate env (.policy (hdr .denyOverrides) [always .permit]) ctx,
      .assign (.fresh 0) (.str "Deny"), .assign (.const .permit) (.str "Maybe")],
    ∀ c x, e = .assign (.const c) x → ∃ s, x = .str s ∧ Decision.ofString s = none := by
  intro e he c x h
  simp only [List.mem_cons, List.not_mem_nil, or_false] at he
  rcases he with rfl | rfl | rfl
  · cases h
  · cases h
  · injection h with h1 h2; exact ⟨"Maybe", h2.symm, rfl⟩
end NonVacuity

/-! ## C29 -/

/-- C29 is violated: an Indeterminate response with status OK. -/
theorem C29_violated : ∃ (env : Env) (p : PolicyNode) (ctx : Ctx) (w w' : World) (res : Result),
    pdpEvaluate env (some p) ctx w = (.ok ⟨[res]⟩, w') ∧
    res.decision = .indeterminate ∧ res.status = .ok :=
  ⟨Samples.env, .policy (Samples.hdr .denyOverrides) [Samples.failing .deny], Samples.ctx, Samples.w0, _, _,
    rfl, rfl, rfl⟩

/-- C29, the converse half holds: a response that is not Indeterminate has status OK. In fact every
response has. (Missing: a status for errors.) -/
theorem C29_partial (env : Env) (p : PolicyNode) (ctx : Ctx) (w w' : World) (resp : Response)
    (h : pdpEvaluate env (some p) ctx w = (.ok resp, w')) :
    ∃ res, resp.results = [res] ∧ res.status = .ok := by
  obtain ⟨d, w1, hd⟩ := policy_evaluate_ok env p ctx w
  simp only [pdpEvaluate, PolicyNode.evaluateResponse, hd, Prod.mk.injEq, Except.ok.injEq] at h
  exact ⟨_, by rw [← h.1], rfl⟩

/-! ## C30 -/

/-- C30 is violated: the policy permits and has an obligation to fulfil on Permit; the result
carries none. -/
theorem C30_violated : ∃ (env : Env) (hdr : Header) (rules : List Rule) (ob : Obligation) (ctx : Ctx)
    (w w' : World) (res : Result),
    hdr.obligations = [ob] ∧ ob.fulfillOn = some "Permit" ∧
    pdpEvaluate env (some (.policy hdr rules)) ctx w = (.ok ⟨[res]⟩, w') ∧
    res.decision = .permit ∧ res.obligations = [] :=
  ⟨Samples.env, { Samples.hdr .denyOverrides with obligations := [⟨some "log", some "Permit"⟩] },
    [Samples.always .permit], ⟨some "log", some "Permit"⟩, Samples.ctx, Samples.w0, _, _, rfl, rfl, rfl, rfl, rfl⟩


/-- C30, partial: nothing is invented: no result ever carries an obligation (so the property holds
exactly for trees in which no contributing policy has a matching obligation). -/
theorem C30_partial (env : Env) (p : PolicyNode) (ctx : Ctx) (w w' : World) (resp : Response)
    (h : pdpEvaluate env (some p) ctx w = (.ok resp, w')) :
    ∀ res ∈ resp.results, res.obligations = [] := by
  obtain ⟨d, w1, hd⟩ := policy_evaluate_ok env p ctx w
  simp only [pdpEvaluate, PolicyNode.evaluateResponse, hd, Prod.mk.injEq, Except.ok.injEq] at h
  intro res hres
  rw [← h.1] at hres
  simp only [List.mem_singleton] at hres
  rw [hres]; rfl

end Xacml
