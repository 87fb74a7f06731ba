import Verif.Spec.Samples
import Verif.Lemmas.Monad

/-!
# C87: regrouping policies does not change decisions
-/
namespace Xacml

/-! ## Policy sets within policy sets -/

private theorem bind_ok_congr {α β} {m : EvalM α} {f g : α → EvalM β} (h : ∀ a, f a = g a) : (m >>= f) = (m >>= g) := by
  have : f = g := funext h
  rw [this]

private theorem bind_assoc {α β γ} (m : EvalM α) (f : α → EvalM β) (g : β → EvalM γ) :
    ((m >>= f) >>= g) = (m >>= fun a => f a >>= g) := bind_assoc' m f g

private theorem pure_bind' {α β} (a : α) (f : α → EvalM β) : ((pure a : EvalM α) >>= f) = f a := rfl

/-- Children that never raise. -/
private def Safe (cs : List (EvalM Decision)) : Prop := ∀ c ∈ cs, ∀ w, ∃ d w', c w = (.ok d, w')

private theorem catch_safe {m : EvalM Decision} (h : ∀ w, ∃ d w', m w = (.ok d, w')) : catchAll m = m := by
  funext w
  obtain ⟨d, w', e⟩ := h w
  simp [catchAll, e]

private theorem bind_safe {m : EvalM Decision} {f : Decision → EvalM Decision} (h : ∀ w, ∃ d w', m w = (.ok d, w'))
    (hf : ∀ d w, ∃ d' w', f d w = (.ok d', w')) : ∀ w, ∃ d w', (m >>= f) w = (.ok d, w') := by
  intro w
  obtain ⟨d, w1, e⟩ := h w
  rw [run_bind_ok e]
  exact hf d w1

private theorem safe_deny {cs} (h : Safe cs) : ∀ b w, ∃ d w', denyOverridesPolicies b cs w = (.ok d, w') := by
  induction cs with
  | nil => intro b w; cases b <;> exact ⟨_, _, rfl⟩
  | cons c cs ih =>
    have ih := ih fun x hx => h x (by simp [hx])
    intro b
    unfold denyOverridesPolicies
    refine bind_safe (h c (by simp)) fun d w => ?_
    cases d with
    | permit => exact ih _ w
    | notApplicable => exact ih _ w
    | _ => exact ⟨_, _, rfl⟩

private theorem safe_permit {cs} (h : Safe cs) : ∀ a b w, ∃ d w', permitOverridesPolicies a b cs w = (.ok d, w') := by
  induction cs with
  | nil => intro a b w; cases a <;> cases b <;> exact ⟨_, _, rfl⟩
  | cons c cs ih =>
    have ih := ih fun x hx => h x (by simp [hx])
    intro a b
    unfold permitOverridesPolicies
    refine bind_safe (h c (by simp)) fun d w => ?_
    cases d with
    | permit => exact ⟨_, _, rfl⟩
    | _ => exact ih _ _ w

private theorem safe_first {cs} (h : Safe cs) : ∀ w, ∃ d w', firstApplicable cs w = (.ok d, w') := by
  induction cs with
  | nil => intro w; exact ⟨_, _, rfl⟩
  | cons c cs ih =>
    have ih := ih fun x hx => h x (by simp [hx])
    unfold firstApplicable
    refine bind_safe (h c (by simp)) fun d w => ?_
    cases d with
    | notApplicable => exact ih w
    | _ => exact ⟨_, _, rfl⟩

private theorem safe_policies (env : Env) (ctx : Ctx) (ps : List PolicyNode) : Safe (ps.map (PolicyNode.evaluate env ctx)) := by
  intro c hc w
  obtain ⟨p, -, rfl⟩ := List.mem_map.1 hc
  exact policy_evaluate_ok env p ctx w

/-- What deny-overrides does with the decision of a child, and then with the other children. -/
private def denyNext (b : Bool) (post : List (EvalM Decision)) : Decision → EvalM Decision
  | .deny => pure .deny
  | .permit => denyOverridesPolicies true post
  | .notApplicable => denyOverridesPolicies b post
  | .indeterminate => pure .deny

private def permitNext (a b : Bool) (post : List (EvalM Decision)) : Decision → EvalM Decision
  | .deny => permitOverridesPolicies a true post
  | .permit => pure .permit
  | .notApplicable => permitOverridesPolicies a b post
  | .indeterminate => permitOverridesPolicies true b post

private def firstNext (post : List (EvalM Decision)) : Decision → EvalM Decision
  | .deny => pure .deny
  | .permit => pure .permit
  | .notApplicable => firstApplicable post
  | .indeterminate => pure .indeterminate

private theorem deny_cons (b : Bool) (c : EvalM Decision) (cs) :
    denyOverridesPolicies b (c :: cs) = (c >>= denyNext b cs) := by
  rw [denyOverridesPolicies]; exact bind_ok_congr fun d => by cases d <;> rfl

private theorem permit_cons (a b : Bool) (c : EvalM Decision) (cs) :
    permitOverridesPolicies a b (c :: cs) = (c >>= permitNext a b cs) := by
  rw [permitOverridesPolicies]; exact bind_ok_congr fun d => by cases d <;> rfl

private theorem first_cons (c : EvalM Decision) (cs) : firstApplicable (c :: cs) = (c >>= firstNext cs) := by
  rw [firstApplicable]; exact bind_ok_congr fun d => by cases d <;> rfl

private theorem deny_group (cs post : List (EvalM Decision)) : ∀ b b0 : Bool,
    (denyOverridesPolicies b0 cs >>= denyNext b post) = denyOverridesPolicies (b || b0) (cs ++ post) := by
  induction cs with
  | nil => intro b b0; cases b0 <;> simp [denyOverridesPolicies, pure_bind', denyNext]
  | cons c cs ih =>
    intro b b0
    rw [List.cons_append, deny_cons, deny_cons, bind_assoc]
    refine bind_ok_congr fun d => ?_
    cases d with
    | deny => rfl
    | permit => simp only [denyNext]; rw [ih]; simp
    | notApplicable => simp only [denyNext]; rw [ih]
    | indeterminate => rfl

private theorem permit_denied (cs : List (EvalM Decision)) : ∀ a a' : Bool,
    permitOverridesPolicies a true cs = permitOverridesPolicies a' true cs := by
  induction cs with
  | nil => intro a a'; simp [permitOverridesPolicies]
  | cons c cs ih =>
    intro a a'
    rw [permit_cons, permit_cons]
    refine bind_ok_congr fun d => ?_
    cases d with
    | deny => exact ih _ _
    | permit => rfl
    | notApplicable => exact ih _ _
    | indeterminate => rfl

private theorem permit_group (cs post : List (EvalM Decision)) : ∀ a b a0 b0 : Bool,
    (permitOverridesPolicies a0 b0 cs >>= permitNext a b post) = permitOverridesPolicies (a || a0) (b || b0) (cs ++ post) := by
  induction cs with
  | nil =>
    intro a b a0 b0
    cases b0 with
    | true =>
      simp only [permitOverridesPolicies, if_true, pure_bind', permitNext, Bool.or_true, List.nil_append]
      exact permit_denied _ _ _
    | false => cases a0 <;> simp [permitOverridesPolicies, pure_bind', permitNext]
  | cons c cs ih =>
    intro a b a0 b0
    rw [List.cons_append, permit_cons, permit_cons, bind_assoc]
    refine bind_ok_congr fun d => ?_
    cases d with
    | deny => simp only [permitNext]; rw [ih]; simp
    | permit => rfl
    | notApplicable => simp only [permitNext]; rw [ih]
    | indeterminate => simp only [permitNext]; rw [ih]; simp

private theorem first_group (cs post : List (EvalM Decision)) :
    (firstApplicable cs >>= firstNext post) = firstApplicable (cs ++ post) := by
  induction cs with
  | nil => rfl
  | cons c cs ih =>
    rw [List.cons_append, first_cons, first_cons, bind_assoc]
    refine bind_ok_congr fun d => ?_
    cases d with
    | notApplicable => exact ih
    | _ => rfl

/-! Replacing the end of the list of children. -/

private theorem tail_deny (pre : List (EvalM Decision)) {x y : List (EvalM Decision)}
    (hd : ∀ b, denyOverridesPolicies b x = denyOverridesPolicies b y) (b : Bool) :
    denyOverridesPolicies b (pre ++ x) = denyOverridesPolicies b (pre ++ y) := by
  rw [← Bool.or_false b, ← deny_group pre x, ← deny_group pre y]
  exact bind_ok_congr fun d => by cases d <;> simp [denyNext, hd]

private theorem tail_permit (pre : List (EvalM Decision)) {x y : List (EvalM Decision)}
    (hp : ∀ a b, permitOverridesPolicies a b x = permitOverridesPolicies a b y) (a b : Bool) :
    permitOverridesPolicies a b (pre ++ x) = permitOverridesPolicies a b (pre ++ y) := by
  rw [← Bool.or_false a, ← Bool.or_false b, ← permit_group pre x, ← permit_group pre y]
  exact bind_ok_congr fun d => by cases d <;> simp [permitNext, hp]

private theorem tail_first (pre : List (EvalM Decision)) {x y : List (EvalM Decision)}
    (hf : firstApplicable x = firstApplicable y) : firstApplicable (pre ++ x) = firstApplicable (pre ++ y) := by
  rw [← first_group pre x, ← first_group pre y]
  exact bind_ok_congr fun d => by cases d <;> simp [firstNext, hf]

private theorem noTarget (env : Env) (ctx : Ctx) (hdr : Header) (h : hdr.target = none) (m : EvalM Decision) :
    policyBaseEvaluate env hdr ctx m = catchAll m := by
  unfold policyBaseEvaluate targetMatch
  rw [h]
  rfl

/-- **C87.** A policy set without target within a policy set with the same combining algorithm can be replaced by its
policies, and policies can be grouped into one: for every request and history the decision and everything that is asked
of the context handler stay the same. -/
theorem C87_inline (env : Env) (ctx : Ctx) (outer inner : Header) (alg : Alg) (ho : outer.alg = some alg)
    (hi : inner.alg = some alg) (ht : inner.target = none) (pre ps post : List PolicyNode) (w : World) :
    (PolicyNode.policySet outer (pre ++ .policySet inner ps :: post)).evaluate env ctx w =
      (PolicyNode.policySet outer (pre ++ ps ++ post)).evaluate env ctx w := by
  have hs := safe_policies env ctx ps
  unfold PolicyNode.evaluate
  rw [evaluators_eq_map, evaluators_eq_map, ho]
  simp only [List.map_append, List.map_cons, List.append_assoc]
  rw [PolicyNode.evaluate, noTarget env ctx inner ht, evaluators_eq_map, hi]
  cases alg with
  | denyOverrides =>
    simp only [combinePolicies]
    rw [tail_deny _ fun b => ?_]
    rw [deny_cons, catch_safe (safe_deny hs false), deny_group, Bool.or_false]
  | permitOverrides =>
    simp only [combinePolicies]
    rw [tail_permit _ fun a b => ?_]
    rw [permit_cons, catch_safe (safe_permit hs false false), permit_group, Bool.or_false, Bool.or_false]
  | firstApplicable =>
    simp only [combinePolicies]
    rw [tail_first _ ?_]
    rw [first_cons, catch_safe (safe_first hs), first_group]

/-! ## Splitting a policy -/

/-- Rules that never give Indeterminate. -/
private def NoFail (cs : List RuleChild) : Prop := ∀ c ∈ cs, ∀ w, ∃ d w', c.run w = (.ok d, w') ∧ d ≠ .indeterminate

private theorem bind_noFail {m : EvalM Decision} {f g : Decision → EvalM Decision}
    (h : ∀ w, ∃ d w', m w = (.ok d, w') ∧ d ≠ .indeterminate) (hfg : ∀ d, d ≠ .indeterminate → f d = g d) :
    (m >>= f) = (m >>= g) := by
  funext w
  obtain ⟨d, w', e, hd⟩ := h w
  rw [run_bind_ok e, run_bind_ok e, hfg d hd]

private theorem noFail_deny {cs} (h : NoFail cs) : ∀ (o : Bool) (w : World),
    ∃ d w', denyOverridesRules ⟨false, false, o⟩ cs w = (.ok d, w') ∧ d ≠ .indeterminate := by
  induction cs with
  | nil => intro o w; cases o <;> exact ⟨_, _, rfl, by simp⟩
  | cons c cs ih =>
    have ih := ih fun x hx => h x (by simp [hx])
    intro o w
    obtain ⟨d, w', e, hd⟩ := h c (by simp) w
    rw [denyOverridesRules, run_bind_ok e]
    cases d with
    | deny => exact ⟨_, _, rfl, by simp⟩
    | permit => exact ih _ _
    | notApplicable => exact ih _ _
    | indeterminate => exact absurd rfl hd

private theorem noFail_permit {cs} (h : NoFail cs) : ∀ (o : Bool) (w : World),
    ∃ d w', permitOverridesRules ⟨false, false, o⟩ cs w = (.ok d, w') ∧ d ≠ .indeterminate := by
  induction cs with
  | nil => intro o w; cases o <;> exact ⟨_, _, rfl, by simp⟩
  | cons c cs ih =>
    have ih := ih fun x hx => h x (by simp [hx])
    intro o w
    obtain ⟨d, w', e, hd⟩ := h c (by simp) w
    rw [permitOverridesRules, run_bind_ok e]
    cases d with
    | deny => exact ih _ _
    | permit => exact ⟨_, _, rfl, by simp⟩
    | notApplicable => exact ih _ _
    | indeterminate => exact absurd rfl hd

private theorem denyRules_flag {cs} (h : NoFail cs) (post : List (EvalM Decision)) : ∀ b : Bool,
    (denyOverridesRules ⟨false, false, true⟩ cs >>= denyNext b post) = (denyOverridesRules ⟨false, false, false⟩ cs >>= denyNext true post) ∧
    (denyOverridesRules ⟨false, false, true⟩ cs >>= denyNext b post) = (denyOverridesRules ⟨false, false, true⟩ cs >>= denyNext true post) := by
  induction cs with
  | nil => intro b; exact ⟨rfl, rfl⟩
  | cons c cs ih =>
    have ih := ih fun x hx => h x (by simp [hx])
    intro b
    simp only [denyOverridesRules, bind_assoc]
    constructor
    · refine bind_noFail (h c (by simp)) fun d hd => ?_
      cases d with
      | deny => rfl
      | permit => exact (ih b).2
      | notApplicable => exact (ih b).1
      | indeterminate => exact absurd rfl hd
    · refine bind_noFail (h c (by simp)) fun d hd => ?_
      cases d with
      | deny => rfl
      | permit => exact (ih b).2
      | notApplicable => exact (ih b).2
      | indeterminate => exact absurd rfl hd

private theorem denyRules_split {cs ds} (hc : NoFail cs) (hd : NoFail ds) (post : List (EvalM Decision)) : ∀ b o : Bool,
    (denyOverridesRules ⟨false, false, o⟩ (cs ++ ds) >>= denyNext b post) =
      (denyOverridesRules ⟨false, false, o⟩ cs >>= denyNext b (denyOverridesRules ⟨false, false, false⟩ ds :: post)) := by
  induction cs with
  | nil =>
    intro b o
    cases o with
    | false => simp only [List.nil_append, denyOverridesRules, Bool.false_eq_true, if_false, pure_bind', denyNext, deny_cons]
    | true =>
      simp only [List.nil_append, denyOverridesRules, Bool.false_eq_true, if_false, if_true, pure_bind', denyNext, deny_cons]
      exact (denyRules_flag hd post b).1
  | cons c cs ih =>
    have ih := ih fun x hx => hc x (by simp [hx])
    intro b o
    simp only [List.cons_append, denyOverridesRules, bind_assoc]
    refine bind_noFail (hc c (by simp)) fun d hd => ?_
    cases d with
    | deny => rfl
    | permit => exact ih b true
    | notApplicable => exact ih b o
    | indeterminate => exact absurd rfl hd

private theorem permitRules_flag {cs} (h : NoFail cs) (post : List (EvalM Decision)) (a : Bool) : ∀ b : Bool,
    (permitOverridesRules ⟨false, false, true⟩ cs >>= permitNext a b post) =
      (permitOverridesRules ⟨false, false, false⟩ cs >>= permitNext a true post) ∧
    (permitOverridesRules ⟨false, false, true⟩ cs >>= permitNext a b post) =
      (permitOverridesRules ⟨false, false, true⟩ cs >>= permitNext a true post) := by
  induction cs with
  | nil => intro b; exact ⟨rfl, rfl⟩
  | cons c cs ih =>
    have ih := ih fun x hx => h x (by simp [hx])
    intro b
    simp only [permitOverridesRules, bind_assoc]
    constructor
    · refine bind_noFail (h c (by simp)) fun d hd => ?_
      cases d with
      | deny => exact (ih b).2
      | permit => rfl
      | notApplicable => exact (ih b).1
      | indeterminate => exact absurd rfl hd
    · refine bind_noFail (h c (by simp)) fun d hd => ?_
      cases d with
      | deny => exact (ih b).2
      | permit => rfl
      | notApplicable => exact (ih b).2
      | indeterminate => exact absurd rfl hd

private theorem permitRules_split {cs ds} (hc : NoFail cs) (hd : NoFail ds) (post : List (EvalM Decision)) (a : Bool) :
    ∀ b o : Bool,
    (permitOverridesRules ⟨false, false, o⟩ (cs ++ ds) >>= permitNext a b post) =
      (permitOverridesRules ⟨false, false, o⟩ cs >>= permitNext a b (permitOverridesRules ⟨false, false, false⟩ ds :: post)) := by
  induction cs with
  | nil =>
    intro b o
    cases o with
    | false => simp only [List.nil_append, permitOverridesRules, Bool.false_eq_true, if_false, pure_bind', permitNext, permit_cons]
    | true =>
      simp only [List.nil_append, permitOverridesRules, Bool.false_eq_true, if_false, if_true, pure_bind', permitNext, permit_cons]
      exact (permitRules_flag hd post a b).1
  | cons c cs ih =>
    have ih := ih fun x hx => hc x (by simp [hx])
    intro b o
    simp only [List.cons_append, permitOverridesRules, bind_assoc]
    refine bind_noFail (hc c (by simp)) fun d hd => ?_
    cases d with
    | deny => exact ih b true
    | permit => rfl
    | notApplicable => exact ih b o
    | indeterminate => exact absurd rfl hd

/-- **C87.** A first-applicable policy without target within a first-applicable policy set can be split into two
policies, or two such policies merged, at any point of its rules. -/
theorem C87_split_first (env : Env) (ctx : Ctx) (outer inner inner1 inner2 : Header)
    (ho : outer.alg = some .firstApplicable) (hi : ∀ h ∈ [inner, inner1, inner2], h.alg = some .firstApplicable ∧ h.target = none)
    (pre post : List PolicyNode) (rules1 rules2 : List Rule) (w : World) :
    (PolicyNode.policySet outer (pre ++ .policy inner (rules1 ++ rules2) :: post)).evaluate env ctx w =
      (PolicyNode.policySet outer (pre ++ .policy inner1 rules1 :: .policy inner2 rules2 :: post)).evaluate env ctx w := by
  obtain ⟨h0, t0⟩ := hi inner (by simp)
  obtain ⟨h1, t1⟩ := hi inner1 (by simp)
  obtain ⟨h2, t2⟩ := hi inner2 (by simp)
  have hs : ∀ rules : List Rule, Safe ((rules.map (Rule.child env ctx)).map RuleChild.run) := by
    intro rules c hc w
    simp only [List.map_map, List.mem_map] at hc
    obtain ⟨r, -, rfl⟩ := hc
    exact rule_evaluate_ok env r ctx w
  unfold PolicyNode.evaluate
  rw [evaluators_eq_map, evaluators_eq_map, ho]
  simp only [List.map_append, List.map_cons]
  rw [PolicyNode.evaluate, PolicyNode.evaluate, PolicyNode.evaluate, noTarget env ctx inner t0, noTarget env ctx inner1 t1,
    noTarget env ctx inner2 t2, h0, h1, h2]
  simp only [combineRules, combinePolicies]
  rw [catch_safe (safe_first (hs _)), catch_safe (safe_first (hs _)), catch_safe (safe_first (hs _))]
  rw [tail_first _ ?_]
  rw [first_cons, first_cons, List.map_append, List.map_append, ← first_group _ (List.map _ _), bind_assoc]
  refine bind_ok_congr fun d => ?_
  cases d with
  | notApplicable => simp only [firstNext, first_cons]
  | _ => rfl

/-- **C87, for the overrides algorithms.** The same for a deny-overrides (permit-overrides) policy in a deny-overrides
(permit-overrides) policy set, as long as none of its rules is Indeterminate. -/
theorem C87_split_overrides_partial (env : Env) (ctx : Ctx) (outer inner inner1 inner2 : Header) (alg : Alg)
    (hne : alg ≠ .firstApplicable)
    (ho : outer.alg = some alg) (hi : ∀ h ∈ [inner, inner1, inner2], h.alg = some alg ∧ h.target = none)
    (pre post : List PolicyNode) (rules1 rules2 : List Rule)
    (hr : ∀ r ∈ rules1 ++ rules2, ∀ w, (r.evaluate env ctx w).1 ≠ .ok .indeterminate) (w : World) :
    (PolicyNode.policySet outer (pre ++ .policy inner (rules1 ++ rules2) :: post)).evaluate env ctx w =
      (PolicyNode.policySet outer (pre ++ .policy inner1 rules1 :: .policy inner2 rules2 :: post)).evaluate env ctx w := by
  obtain ⟨h0, t0⟩ := hi inner (by simp)
  obtain ⟨h1, t1⟩ := hi inner1 (by simp)
  obtain ⟨h2, t2⟩ := hi inner2 (by simp)
  have hs : ∀ rules : List Rule, (∀ r ∈ rules, r ∈ rules1 ++ rules2) → NoFail (rules.map (Rule.child env ctx)) := by
    intro rules hm c hc w
    obtain ⟨r, hr', rfl⟩ := List.mem_map.1 hc
    obtain ⟨d, w', e⟩ := rule_evaluate_ok env r ctx w
    refine ⟨d, w', e, ?_⟩
    rintro rfl
    exact hr r (hm r hr') w (by rw [e])
  have s1 := hs rules1 fun r h => by simp [h]
  have s2 := hs rules2 fun r h => by simp [h]
  have s12 := hs (rules1 ++ rules2) fun r h => h
  have safe : ∀ {m : EvalM Decision}, (∀ w, ∃ d w', m w = (.ok d, w') ∧ d ≠ .indeterminate) → catchAll m = m :=
    fun h => catch_safe fun w => by obtain ⟨d, w', e, -⟩ := h w; exact ⟨d, w', e⟩
  unfold PolicyNode.evaluate
  rw [evaluators_eq_map, evaluators_eq_map, ho]
  simp only [List.map_append, List.map_cons]
  rw [PolicyNode.evaluate, PolicyNode.evaluate, PolicyNode.evaluate, noTarget env ctx inner t0, noTarget env ctx inner1 t1,
    noTarget env ctx inner2 t2, h0, h1, h2]
  cases alg with
  | firstApplicable => exact absurd rfl hne
  | denyOverrides =>
    simp only [combineRules, combinePolicies]
    rw [safe (noFail_deny s12 false), safe (noFail_deny s1 false), safe (noFail_deny s2 false)]
    rw [tail_deny _ fun b => ?_]
    rw [deny_cons, deny_cons, List.map_append, denyRules_split s1 s2]
  | permitOverrides =>
    simp only [combineRules, combinePolicies]
    rw [safe (noFail_permit s12 false), safe (noFail_permit s1 false), safe (noFail_permit s2 false)]
    rw [tail_permit _ fun a b => ?_]
    rw [permit_cons, permit_cons, List.map_append, permitRules_split s1 s2]

/-! ## Splitting with rules that fail -/

/-- The second computation does what the first does, or it gives Deny. -/
private def OrDeny (m m' : EvalM Decision) : Prop := ∀ w, m' w = m w ∨ ∃ w', m' w = (.ok .deny, w')

private theorem orDeny_refl (m : EvalM Decision) : OrDeny m m := fun _ => .inl rfl

private theorem orDeny_pure (m : EvalM Decision) : OrDeny m (pure .deny) := fun w => .inr ⟨w, rfl⟩

private theorem orDeny_bind {m : EvalM Decision} {f g : Decision → EvalM Decision} (hm : ∀ w, ∃ d w', m w = (.ok d, w'))
    (h : ∀ d, OrDeny (f d) (g d)) : OrDeny (m >>= f) (m >>= g) := by
  intro w
  obtain ⟨d, w1, e⟩ := hm w
  rw [run_bind_ok e, run_bind_ok e]
  exact h d w1

private theorem catch_bind {m : EvalM Decision} {f : Decision → EvalM Decision} (hm : ∀ w, ∃ d w', m w = (.ok d, w')) :
    catchAll (m >>= f) = (m >>= fun d => catchAll (f d)) := by
  funext w
  obtain ⟨d, w1, e⟩ := hm w
  rw [run_bind_ok e]
  unfold catchAll
  rw [run_bind_ok e]

private theorem catch_pure (d : Decision) : catchAll (pure d) = pure d := rfl
private theorem catch_throw (e : Exc) : catchAll (EvalM.throw e) = pure .indeterminate := rfl

private def SafeRules (cs : List RuleChild) : Prop := ∀ c ∈ cs, ∀ w, ∃ d w', c.run w = (.ok d, w')

/-- What deny-overrides does with the decision of a rule. -/
private def denyRule (f : Flags) (effect : Option Effect) (cs : List RuleChild) : Decision → EvalM Decision
  | .deny => pure .deny
  | .permit => denyOverridesRules { f with other := true } cs
  | .notApplicable => denyOverridesRules f cs
  | .indeterminate => match effect with
    | none => EvalM.throw .attributeError
    | some .deny => denyOverridesRules { f with error := true, potential := true } cs
    | some .permit => denyOverridesRules { f with error := true } cs

private def permitRule (f : Flags) (effect : Option Effect) (cs : List RuleChild) : Decision → EvalM Decision
  | .deny => permitOverridesRules { f with other := true } cs
  | .permit => pure .permit
  | .notApplicable => permitOverridesRules f cs
  | .indeterminate => match effect with
    | none => EvalM.throw .attributeError
    | some .permit => permitOverridesRules { f with error := true, potential := true } cs
    | some .deny => permitOverridesRules { f with error := true } cs

private theorem catch_denyRules {c : RuleChild} (hc : ∀ w, ∃ d w', c.run w = (.ok d, w')) (f : Flags) (cs) :
    catchAll (denyOverridesRules f (c :: cs)) = (c.run >>= fun d => catchAll (denyRule f c.effect cs d)) := by
  rw [← catch_bind hc, denyOverridesRules]
  congr 1

private theorem catch_permitRules {c : RuleChild} (hc : ∀ w, ∃ d w', c.run w = (.ok d, w')) (f : Flags) (cs) :
    catchAll (permitOverridesRules f (c :: cs)) = (c.run >>= fun d => catchAll (permitRule f c.effect cs d)) := by
  rw [← catch_bind hc, permitOverridesRules]
  congr 1

private theorem denyRules_more {ds : List RuleChild} (h : SafeRules ds) (b : Bool) (post : List (EvalM Decision)) :
    ∀ (p e1 e2 o : Bool),
    OrDeny (catchAll (denyOverridesRules ⟨e1, p, true⟩ ds) >>= denyNext b post)
      (catchAll (denyOverridesRules ⟨e2, p, o⟩ ds) >>= denyNext true post) := by
  induction ds with
  | nil =>
    intro p e1 e2 o
    cases p <;> cases e2 <;> cases o <;>
      simp only [denyOverridesRules, Bool.false_eq_true, if_false, if_true, catch_pure, pure_bind', denyNext] <;>
      first | exact orDeny_refl _ | exact orDeny_pure _
  | cons c cs ih =>
    have ih := ih fun x hx => h x (by simp [hx])
    intro p e1 e2 o
    have hc := h c (by simp)
    rw [catch_denyRules hc, catch_denyRules hc, bind_assoc, bind_assoc]
    refine orDeny_bind hc fun d => ?_
    cases d with
    | deny => exact orDeny_refl _
    | permit => exact ih _ _ _ _
    | notApplicable => exact ih _ _ _ _
    | indeterminate =>
      simp only [denyRule]
      rcases c.effect with _ | _ | _
      · exact orDeny_refl _
      · exact ih _ _ _ _
      · exact ih _ _ _ _

private theorem denyRules_parts {cs ds : List RuleChild} (hc : SafeRules cs) (hd : SafeRules ds) (b : Bool)
    (post : List (EvalM Decision)) : ∀ f : Flags,
    OrDeny (catchAll (denyOverridesRules f (cs ++ ds)) >>= denyNext b post)
      (catchAll (denyOverridesRules f cs) >>= denyNext b (catchAll (denyOverridesRules {} ds) :: post)) := by
  induction cs with
  | nil =>
    rintro ⟨e, p, o⟩
    cases p with
    | true => exact orDeny_pure _
    | false =>
      cases o with
      | true =>
        simp only [denyOverridesRules, Bool.false_eq_true, if_false, if_true, catch_pure, pure_bind', denyNext, deny_cons,
          List.nil_append]
        exact denyRules_more hd b post _ _ _ _
      | false =>
        cases e with
        | true => exact orDeny_pure _
        | false =>
          simp only [denyOverridesRules, Bool.false_eq_true, if_false, catch_pure, pure_bind', denyNext, deny_cons,
            List.nil_append]
          exact orDeny_refl _
  | cons c cs ih =>
    have ih := ih fun x hx => hc x (by simp [hx])
    intro f
    have hc := hc c (by simp)
    rw [List.cons_append, catch_denyRules hc, catch_denyRules hc, bind_assoc, bind_assoc]
    refine orDeny_bind hc fun d => ?_
    cases d with
    | deny => exact orDeny_refl _
    | permit => exact ih _
    | notApplicable => exact ih _
    | indeterminate =>
      simp only [denyRule]
      rcases c.effect with _ | _ | _
      · exact orDeny_refl _
      · exact ih _
      · exact ih _

/-- A policy set that has seen a Deny gives Permit or Deny. -/
private theorem permit_orDeny {post : List (EvalM Decision)} (h : Safe post) : ∀ a a' b : Bool,
    OrDeny (permitOverridesPolicies a b post) (permitOverridesPolicies a' true post) := by
  induction post with
  | nil => intro a a' b; exact orDeny_pure _
  | cons c cs ih =>
    have ih := ih fun x hx => h x (by simp [hx])
    intro a a' b
    rw [permit_cons, permit_cons]
    refine orDeny_bind (h c (by simp)) fun d => ?_
    cases d with
    | permit => exact orDeny_refl _
    | _ => exact ih _ _ _

/-- The same with more rules in between. -/
private theorem permitRules_denied {ds : List RuleChild} (h : SafeRules ds) {post : List (EvalM Decision)} (hp : Safe post)
    (a a' b : Bool) : ∀ f g : Flags,
    OrDeny (catchAll (permitOverridesRules f ds) >>= permitNext a b post)
      (catchAll (permitOverridesRules g ds) >>= permitNext a' true post) := by
  induction ds with
  | nil =>
    rintro ⟨e, p, o⟩ ⟨e', p', o'⟩
    cases p <;> cases e <;> cases o <;> cases p' <;> cases e' <;> cases o' <;>
      simp only [permitOverridesRules, Bool.false_eq_true, if_false, if_true, catch_pure, pure_bind', permitNext] <;>
      exact permit_orDeny hp _ _ _
  | cons c cs ih =>
    have ih := ih fun x hx => h x (by simp [hx])
    intro f g
    have hc := h c (by simp)
    rw [catch_permitRules hc, catch_permitRules hc, bind_assoc, bind_assoc]
    refine orDeny_bind hc fun d => ?_
    cases d with
    | deny => exact ih _ _
    | permit => exact orDeny_refl _
    | notApplicable => exact ih _ _
    | indeterminate =>
      simp only [permitRule]
      rcases c.effect with _ | _ | _
      · simp only [catch_throw, pure_bind', permitNext]; exact permit_orDeny hp _ _ _
      · exact ih _ _
      · exact ih _ _

/-- After a Permit rule that failed. -/
private theorem permitRules_potential {ds : List RuleChild} (h : SafeRules ds) {post : List (EvalM Decision)} (hp : Safe post)
    (a b : Bool) : ∀ e1 o1 e2 p2 o2 : Bool,
    OrDeny (catchAll (permitOverridesRules ⟨e1, true, o1⟩ ds) >>= permitNext a b post)
      (catchAll (permitOverridesRules ⟨e2, p2, o2⟩ ds) >>= permitNext true b post) := by
  induction ds with
  | nil =>
    intro e1 o1 e2 p2 o2
    cases p2 <;> cases e2 <;> cases o2 <;>
      simp only [permitOverridesRules, Bool.false_eq_true, if_false, if_true, catch_pure, pure_bind', permitNext] <;>
      first | exact orDeny_refl _ | exact permit_orDeny hp _ _ _
  | cons c cs ih =>
    have ih := ih fun x hx => h x (by simp [hx])
    intro e1 o1 e2 p2 o2
    have hc := h c (by simp)
    rw [catch_permitRules hc, catch_permitRules hc, bind_assoc, bind_assoc]
    refine orDeny_bind hc fun d => ?_
    cases d with
    | deny => exact ih _ _ _ _ _
    | permit => exact orDeny_refl _
    | notApplicable => exact ih _ _ _ _ _
    | indeterminate =>
      simp only [permitRule]
      rcases c.effect with _ | _ | _
      · exact orDeny_refl _
      · exact ih _ _ _ _ _
      · exact ih _ _ _ _ _

/-- After Deny rules one of which failed. -/
private theorem permitRules_error {ds : List RuleChild} (h : SafeRules ds) {post : List (EvalM Decision)} (hp : Safe post)
    (a b : Bool) : ∀ p o e2 : Bool,
    OrDeny (catchAll (permitOverridesRules ⟨true, p, o⟩ ds) >>= permitNext a b post)
      (catchAll (permitOverridesRules ⟨e2, p, o⟩ ds) >>= permitNext true b post) := by
  induction ds with
  | nil =>
    intro p o e2
    cases p <;> cases e2 <;> cases o <;>
      simp only [permitOverridesRules, Bool.false_eq_true, if_false, if_true, catch_pure, pure_bind', permitNext] <;>
      first | exact orDeny_refl _ | exact permit_orDeny hp _ _ _
  | cons c cs ih =>
    have ih := ih fun x hx => h x (by simp [hx])
    intro p o e2
    have hc := h c (by simp)
    rw [catch_permitRules hc, catch_permitRules hc, bind_assoc, bind_assoc]
    refine orDeny_bind hc fun d => ?_
    cases d with
    | deny => exact ih _ _ _
    | permit => exact orDeny_refl _
    | notApplicable => exact ih _ _ _
    | indeterminate =>
      simp only [permitRule]
      rcases c.effect with _ | _ | _
      · exact orDeny_refl _
      · exact ih _ _ _
      · exact ih _ _ _

private theorem permitRules_parts {cs ds : List RuleChild} (hc : SafeRules cs) (hd : SafeRules ds)
    (he : ∀ c ∈ cs, c.effect ≠ none) (a b : Bool)
    {post : List (EvalM Decision)} (hp : Safe post) : ∀ f : Flags,
    OrDeny (catchAll (permitOverridesRules f (cs ++ ds)) >>= permitNext a b post)
      (catchAll (permitOverridesRules f cs) >>= permitNext a b (catchAll (permitOverridesRules {} ds) :: post)) := by
  induction cs with
  | nil =>
    rintro ⟨e, p, o⟩
    cases p with
    | true =>
      simp only [permitOverridesRules, if_true, catch_pure, pure_bind', permitNext, permit_cons, List.nil_append]
      exact permitRules_potential hd hp _ _ _ _ _ _ _
    | false =>
      cases o with
      | true =>
        simp only [permitOverridesRules, Bool.false_eq_true, if_false, if_true, catch_pure, pure_bind', permitNext, permit_cons,
          List.nil_append]
        exact permitRules_denied hd hp _ _ _ _ _
      | false =>
        cases e with
        | true =>
          simp only [permitOverridesRules, Bool.false_eq_true, if_false, if_true, catch_pure, pure_bind', permitNext, permit_cons,
            List.nil_append]
          exact permitRules_error hd hp _ _ _ _ _
        | false =>
          simp only [permitOverridesRules, Bool.false_eq_true, if_false, catch_pure, pure_bind', permitNext, permit_cons,
            List.nil_append]
          exact orDeny_refl _
  | cons c cs ih =>
    have ih := ih (fun x hx => hc x (by simp [hx])) fun x hx => he x (by simp [hx])
    intro f
    have hc := hc c (by simp)
    have he := he c (by simp)
    rw [List.cons_append, catch_permitRules hc, catch_permitRules hc, bind_assoc, bind_assoc]
    refine orDeny_bind hc fun d => ?_
    cases d with
    | deny => exact ih _
    | permit => exact orDeny_refl _
    | notApplicable => exact ih _
    | indeterminate =>
      simp only [permitRule]
      rcases hce : c.effect with _ | _ | _
      · exact absurd hce he
      · exact ih _
      · exact ih _

private theorem orDeny_tail_deny (pre : List (EvalM Decision)) (hpre : Safe pre) {x y : List (EvalM Decision)}
    (hd : ∀ b, OrDeny (denyOverridesPolicies b x) (denyOverridesPolicies b y)) (b : Bool) :
    OrDeny (denyOverridesPolicies b (pre ++ x)) (denyOverridesPolicies b (pre ++ y)) := by
  rw [← Bool.or_false b, ← deny_group pre x, ← deny_group pre y]
  refine orDeny_bind (safe_deny hpre false) fun d => ?_
  cases d with
  | permit => exact hd _
  | notApplicable => exact hd _
  | _ => exact orDeny_refl _

private theorem orDeny_tail_permit (pre : List (EvalM Decision)) (hpre : Safe pre) {x y : List (EvalM Decision)}
    (hp : ∀ a b, OrDeny (permitOverridesPolicies a b x) (permitOverridesPolicies a b y)) (a b : Bool) :
    OrDeny (permitOverridesPolicies a b (pre ++ x)) (permitOverridesPolicies a b (pre ++ y)) := by
  rw [← Bool.or_false a, ← Bool.or_false b, ← permit_group pre x, ← permit_group pre y]
  refine orDeny_bind (safe_permit hpre false false) fun d => ?_
  cases d with
  | permit => exact orDeny_refl _
  | _ => exact hp _ _

private theorem orDeny_base {env : Env} {hdr : Header} {ctx : Ctx} {m m' : EvalM Decision} (h : OrDeny m m') :
    OrDeny (policyBaseEvaluate env hdr ctx m) (policyBaseEvaluate env hdr ctx m') := by
  intro w
  unfold policyBaseEvaluate catchAll
  simp only [run_bind]
  rcases targetMatch env hdr.target ctx w with ⟨_ | tm, w1⟩
  · exact .inl rfl
  · cases tm with
    | false => exact .inl rfl
    | true =>
      simp only [Bool.not_true, Bool.false_eq_true, if_false]
      rcases h w1 with h | ⟨w2, h⟩
      · rw [h]; exact .inl rfl
      · rw [h]; exact .inr ⟨w2, rfl⟩

/-- **C87.** Splitting a policy never grants: with the overrides algorithms, whatever fails, the decision (and all that
is asked) stays the same, or it becomes Deny. All rules must have an effect. -/
theorem C87_split_never_grants (env : Env) (ctx : Ctx) (outer inner inner1 inner2 : Header) (alg : Alg)
    (hne : alg ≠ .firstApplicable)
    (ho : outer.alg = some alg) (hi : ∀ h ∈ [inner, inner1, inner2], h.alg = some alg ∧ h.target = none)
    (pre post : List PolicyNode) (rules1 rules2 : List Rule) (hr : ∀ r ∈ rules1, r.effect ≠ none) (w : World) :
    (PolicyNode.policySet outer (pre ++ .policy inner1 rules1 :: .policy inner2 rules2 :: post)).evaluate env ctx w =
      (PolicyNode.policySet outer (pre ++ .policy inner (rules1 ++ rules2) :: post)).evaluate env ctx w ∨
    ((PolicyNode.policySet outer (pre ++ .policy inner1 rules1 :: .policy inner2 rules2 :: post)).evaluate env ctx w).1 =
      .ok .deny := by
  obtain ⟨h0, t0⟩ := hi inner (by simp)
  obtain ⟨h1, t1⟩ := hi inner1 (by simp)
  obtain ⟨h2, t2⟩ := hi inner2 (by simp)
  have hs : ∀ rules : List Rule, SafeRules (rules.map (Rule.child env ctx)) := by
    intro rules c hc w
    obtain ⟨r, -, rfl⟩ := List.mem_map.1 hc
    exact rule_evaluate_ok env r ctx w
  have he : ∀ c ∈ rules1.map (Rule.child env ctx), c.effect ≠ none := by
    intro c hc
    obtain ⟨r, hr', rfl⟩ := List.mem_map.1 hc
    exact hr r hr'
  have hpre := safe_policies env ctx pre
  have hpost := safe_policies env ctx post
  have key : OrDeny ((PolicyNode.policySet outer (pre ++ .policy inner (rules1 ++ rules2) :: post)).evaluate env ctx)
      ((PolicyNode.policySet outer (pre ++ .policy inner1 rules1 :: .policy inner2 rules2 :: post)).evaluate env ctx) := by
    unfold PolicyNode.evaluate
    rw [evaluators_eq_map, evaluators_eq_map, ho]
    simp only [List.map_append, List.map_cons]
    rw [PolicyNode.evaluate, PolicyNode.evaluate, PolicyNode.evaluate, noTarget env ctx inner t0, noTarget env ctx inner1 t1,
      noTarget env ctx inner2 t2, h0, h1, h2]
    refine orDeny_base ?_
    cases alg with
    | firstApplicable => exact absurd rfl hne
    | denyOverrides =>
      simp only [combineRules, combinePolicies]
      refine orDeny_tail_deny _ hpre (fun b => ?_) _
      rw [deny_cons, deny_cons, List.map_append]
      exact denyRules_parts (hs _) (hs _) _ _ _
    | permitOverrides =>
      simp only [combineRules, combinePolicies]
      refine orDeny_tail_permit _ hpre (fun a b => ?_) _ _
      rw [permit_cons, permit_cons, List.map_append]
      exact permitRules_parts (hs _) (hs _) he _ _ hpost _
  rcases key w with h | ⟨w', h⟩
  · exact .inl h
  · exact .inr (by rw [h])

open Samples in
/-- **C87, violated.** With a rule that fails, splitting a deny-overrides policy turns Permit into Deny, and splitting a
permit-overrides policy turns Indeterminate into Deny. -/
theorem C87_violated :
    ((PolicyNode.policySet (hdr .denyOverrides) [.policy (hdr .denyOverrides) ([failing .permit] ++ [always .permit])]).evaluate env ctx w0).1
      = .ok .permit ∧
    ((PolicyNode.policySet (hdr .denyOverrides) [.policy (hdr .denyOverrides) [failing .permit],
      .policy (hdr .denyOverrides) [always .permit]]).evaluate env ctx w0).1 = .ok .deny ∧
    ((PolicyNode.policySet (hdr .permitOverrides) [.policy (hdr .permitOverrides) ([failing .permit] ++ [always .deny])]).evaluate env ctx w0).1
      = .ok .indeterminate ∧
    ((PolicyNode.policySet (hdr .permitOverrides) [.policy (hdr .permitOverrides) [failing .permit],
      .policy (hdr .permitOverrides) [always .deny]]).evaluate env ctx w0).1 = .ok .deny :=
  ⟨rfl, rfl, rfl, rfl⟩

section NonVacuity
open Samples
example : (hdr .denyOverrides (some (roleTarget "admin"))).alg = some .denyOverrides ∧ (hdr .denyOverrides).target = none := ⟨rfl, rfl⟩
/-- Rules that are never Indeterminate for this request. -/
example : ∀ r ∈ [always .deny] ++ [always .permit], ∀ w, (r.evaluate env ctx w).1 ≠ .ok .indeterminate := by
  simp only [List.cons_append, List.nil_append, List.mem_cons, List.not_mem_nil, or_false]
  rintro r (rfl | rfl) w <;> (intro h; cases h)
/-- A rule that looks at the request. -/
example : ∀ w, ((roleRule .deny "admin").evaluate env ctx w).1 = .ok .deny := by intro w; rfl
/-- Rules with effects, one of which fails. -/
example : (∀ r ∈ [failing .permit, always .permit], r.effect ≠ none) ∧ ∀ w, ((failing .permit).evaluate env ctx w).1 = .ok .indeterminate := by
  refine ⟨?_, fun w => rfl⟩
  simp only [List.mem_cons, List.not_mem_nil, or_false]
  rintro r (rfl | rfl) <;> (intro h; cases h)
end NonVacuity

end Xacml
