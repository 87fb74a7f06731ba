import Verif.Spec.Queries
import Verif.Spec.Samples
import Verif.Lemmas.Monad
import Verif.Props.Designator

/-!
# C86: the context handler is asked only what the policy needs
-/
namespace Xacml
open Spec

/-- Running `m` adds queries from `qs` to the log, in their order. -/
private def Asks {α} (qs : List PipQuery) (m : EvalM α) : Prop :=
  ∀ w, ∃ l, (m w).2.pipLog = w.pipLog ++ l ∧ l.Sublist qs

private theorem asks_pure {α} (a : α) (qs) : Asks qs (pure a : EvalM α) := fun w => ⟨[], by simp, by simp⟩
private theorem asks_throw {α} (e : Exc) (qs) : Asks qs (EvalM.throw e : EvalM α) := fun w => ⟨[], by simp, by simp⟩
private theorem asks_except {α} (x : Except Exc α) (qs) : Asks qs (EvalM.ofExcept x) := fun w => ⟨[], by simp, by simp⟩

private theorem asks_bind {α β} {m : EvalM α} {f : α → EvalM β} {q1 q2} (h1 : Asks q1 m) (h2 : ∀ a, Asks q2 (f a)) :
    Asks (q1 ++ q2) (m >>= f) := by
  intro w
  obtain ⟨l1, e1, s1⟩ := h1 w
  rw [run_bind]
  rcases hm : m w with ⟨x, w1⟩
  rw [hm] at e1
  cases x with
  | error e => exact ⟨l1, e1, s1.trans (List.sublist_append_left _ _)⟩
  | ok a =>
    obtain ⟨l2, e2, s2⟩ := h2 a w1
    refine ⟨l1 ++ l2, ?_, s1.append s2⟩
    simp only at e1 ⊢
    rw [e2, e1, List.append_assoc]

private theorem asks_mono {α} {m : EvalM α} {q1 q2} (h : Asks q1 m) (hs : q1.Sublist q2) : Asks q2 m := by
  intro w
  obtain ⟨l, e, s⟩ := h w
  exact ⟨l, e, s.trans hs⟩

/-- Followed by something that asks nothing. -/
private theorem asks_then {α β} {m : EvalM α} {f : α → EvalM β} {qs} (h1 : Asks qs m) (h2 : ∀ a, Asks [] (f a)) :
    Asks qs (m >>= f) := by have := asks_bind h1 h2; rwa [List.append_nil] at this

private theorem asks_catchAll {m : EvalM Decision} {qs} (h : Asks qs m) : Asks qs (catchAll m) := by
  intro w
  obtain ⟨l, e, s⟩ := h w
  refine ⟨l, ?_, s⟩
  unfold catchAll
  rcases hm : m w with ⟨_ | _, w'⟩ <;> (rw [hm] at e; exact e)

private theorem asks_func (env : Env) (f : Func) (args : List PyVal) : Asks [] (f.evaluate env args) := by
  cases f with
  | regexpMatch t =>
    simp only [Func.evaluate, regexpMatchFn]
    have hg : ∀ pat, Asks [] (getRegex env pat) := by
      intro pat w
      refine ⟨[], ?_, by simp⟩
      unfold getRegex
      split
      · simp
      · split <;> simp
    split
    · split
      · split
        · split
          · split
            · refine asks_then (hg _) fun m => ?_
              split
              · exact asks_pure _ _
              · exact asks_throw _ _
            · exact asks_throw _ _
          · exact asks_throw _ _
        · exact asks_throw _ _
      · exact asks_throw _ _
    · exact asks_throw _ _
  | _ => exact asks_except _ _

private theorem queriesFor_append (r : ReqData) (a b : List Designator) :
    queriesFor r (a ++ b) = queriesFor r a ++ queriesFor r b := by simp [queriesFor]

section
variable (env : Env) (r : Request)

private theorem asks_subject (d : Designator) : Asks (queriesFor r.data [d]) (designatorEval env .subject d (some r)) := by
  intro w
  cases hp : r.ctxHandler with
  | none =>
    exact ⟨[], by simp [C16_no_query env .subject d (some r) w (.inr fun r' h => by cases h; exact .inl hp)], by simp⟩
  | some pip =>
    obtain ⟨n, hn, hw, -⟩ := C16_one_query_per_subject env d r pip w hp
    refine ⟨List.replicate n ⟨r.data, d⟩, by rw [hw]; rfl, ?_⟩
    simp only [queriesFor, List.flatMap_cons, List.flatMap_nil, List.append_nil]
    exact List.replicate_sublist_replicate _ |>.2 hn

private theorem asks_other {cat : Category} (h : cat ≠ .subject) (d : Designator) (qs) :
    Asks qs (designatorEval env cat d (some r)) :=
  fun w => ⟨[], by simp [C16_no_query env cat d (some r) w (.inl h)], by simp⟩

private theorem asks_matchLoop (m : Match) : ∀ vs, Asks [] (matchLoop env m vs)
  | [] => asks_pure _ _
  | v :: vs => by
    unfold matchLoop matchOne
    refine asks_then ?_ fun x => asks_then (asks_matchLoop m vs) fun _ => asks_pure _ _
    cases m.func with
    | none => exact asks_then (asks_throw _ _) fun x => asks_then (asks_except _ _) fun _ => asks_pure _ _
    | some f => exact asks_then (asks_func env f _) fun x => asks_then (asks_except _ _) fun _ => asks_pure _ _

private theorem asks_match (m : Match) : Asks (queriesFor r.data (askedByMatch m)) (m.evaluate env (some r)) := by
  unfold Match.evaluate
  refine asks_then ?_ fun x => ?_
  · unfold Match.requestValues askedByMatch
    cases m.designator with
    | none =>
      cases m.selector with
      | none => exact asks_throw _ _
      | some s => exact asks_except _ _
    | some cd =>
      obtain ⟨cat, d⟩ := cd
      cases cat with
      | subject => exact asks_subject env r d
      | _ => exact asks_other env r (by simp) d _
  · cases x with
    | bag b => exact asks_then (asks_matchLoop env m _) fun _ => asks_pure _ _
    | _ => exact asks_throw _ _

private theorem asks_matches : ∀ ms : List Match,
    Asks (queriesFor r.data (ms.flatMap askedByMatch)) (evalMatches env (some r) ms)
  | [] => asks_pure _ _
  | m :: ms => by
    rw [List.flatMap_cons, queriesFor_append]
    exact asks_bind (asks_match env r m) fun _ => asks_then (asks_matches ms) fun _ => asks_pure _ _

private theorem asks_loop : ∀ (cs : List TargetChild) (b : Bool),
    Asks (queriesFor r.data (askedBySection cs)) (sectionLoop env (some r) b cs)
  | [], _ => asks_pure _ _
  | c :: cs, b => by
    unfold sectionLoop
    rw [show askedBySection (c :: cs) = c.matches_.flatMap askedByMatch ++ askedBySection cs from rfl, queriesFor_append]
    exact asks_bind (asks_then (asks_matches env r _) fun _ => asks_pure _ _) fun _ => asks_loop cs _

private theorem asks_section (cs : List TargetChild) :
    Asks (queriesFor r.data (askedBySection cs)) (matchSection env (some r) cs) := by
  unfold matchSection
  split
  · exact asks_pure _ _
  · exact asks_loop env r cs _

private theorem asks_target (t : Option Target) : Asks (queriesFor r.data (askedByTarget t)) (targetMatch env t (some r)) := by
  cases t with
  | none => exact asks_pure _ _
  | some t =>
    simp only [targetMatch, Target.match_, askedByTarget, queriesFor_append, List.append_assoc]
    exact asks_bind (asks_section env r _) fun _ => asks_bind (asks_section env r _) fun _ =>
      asks_bind (asks_section env r _) fun _ => asks_then (asks_section env r _) fun _ => asks_pure _ _

mutual
private theorem asks_expr : ∀ e : Expr, Asks (queriesFor r.data (askedByExpr e)) (e.evaluate env (some r))
  | .value v => by unfold Expr.evaluate; exact asks_pure _ _
  | .designator cat d => by
    unfold Expr.evaluate
    cases cat with
    | subject => exact asks_subject env r d
    | _ => exact asks_other env r (by simp) d _
  | .selector s => by unfold Expr.evaluate; exact asks_except _ _
  | .apply fn args => by
    unfold Expr.evaluate
    refine asks_then (asks_exprs args) fun vs => ?_
    cases fn with
    | none => exact asks_throw _ _
    | some f => exact asks_func env f vs
private theorem asks_exprs : ∀ es : List Expr, Asks (queriesFor r.data (askedByExprs es)) (Expr.evaluateList env (some r) es)
  | [] => by unfold Expr.evaluateList; exact asks_pure _ _
  | e :: es => by
    unfold Expr.evaluateList askedByExprs
    rw [queriesFor_append]
    exact asks_bind (asks_expr e) fun _ => asks_then (asks_exprs es) fun _ => asks_pure _ _
end

private theorem asks_rule (rule : Rule) : Asks (queriesFor r.data (askedByRule rule)) (rule.evaluate env (some r)) := by
  unfold Rule.evaluate Rule.body askedByRule
  rw [queriesFor_append]
  refine asks_catchAll (asks_bind (asks_target env r _) fun tm => ?_)
  have hend : ∀ status : PyVal, Asks [] (if status.truthy = true then
      (match rule.effect with
        | some e => pure e.toDecision
        | none => EvalM.throw Exc.attributeError)
      else (pure .notApplicable : EvalM Decision)) := by
    intro status
    by_cases hs : status.truthy = true
    · rw [if_pos hs]
      cases rule.effect with
      | none => exact asks_throw _ _
      | some e => exact asks_pure _ _
    · rw [if_neg hs]; exact asks_pure _ _
  cases tm with
  | false => exact asks_pure _ _
  | true =>
    rw [if_neg (by simp)]
    rcases rule.condition with _ | ⟨_ | e⟩
    · exact asks_then (asks_pure _ _) hend
    · exact asks_then (asks_throw _ _) hend
    · exact asks_then (asks_expr env r e) hend

end

/-- What a list of children asks. -/
private inductive AsksAll : List PipQuery → List (EvalM Decision) → Prop
  | nil : AsksAll [] []
  | cons {q qs c cs} : Asks q c → AsksAll qs cs → AsksAll (q ++ qs) (c :: cs)

private theorem asks_denyRules {qs} : ∀ {cs : List RuleChild} (_ : AsksAll qs (cs.map RuleChild.run)) (f : Flags),
    Asks qs (denyOverridesRules f cs) := by
  intro cs
  induction cs generalizing qs with
  | nil => intro _ f; unfold denyOverridesRules; (repeat' split) <;> exact asks_pure _ _
  | cons c cs ih =>
    intro h f
    cases h with
    | cons h1 h2 =>
      unfold denyOverridesRules
      refine asks_bind h1 fun d => ?_
      cases d with
      | deny => exact asks_pure _ _
      | permit => exact ih h2 _
      | notApplicable => exact ih h2 _
      | indeterminate =>
        simp only
        split
        · exact asks_throw _ _
        · exact ih h2 _
        · exact ih h2 _

private theorem asks_permitRules {qs} : ∀ {cs : List RuleChild} (_ : AsksAll qs (cs.map RuleChild.run)) (f : Flags),
    Asks qs (permitOverridesRules f cs) := by
  intro cs
  induction cs generalizing qs with
  | nil => intro _ f; unfold permitOverridesRules; (repeat' split) <;> exact asks_pure _ _
  | cons c cs ih =>
    intro h f
    cases h with
    | cons h1 h2 =>
      unfold permitOverridesRules
      refine asks_bind h1 fun d => ?_
      cases d with
      | deny => exact ih h2 _
      | permit => exact asks_pure _ _
      | notApplicable => exact ih h2 _
      | indeterminate =>
        simp only
        split
        · exact asks_throw _ _
        · exact ih h2 _
        · exact ih h2 _

private theorem asks_first {qs} {cs : List (EvalM Decision)} (h : AsksAll qs cs) : Asks qs (firstApplicable cs) := by
  induction h with
  | nil => exact asks_pure _ _
  | cons h1 h2 ih =>
    unfold firstApplicable
    refine asks_bind h1 fun d => ?_
    cases d with
    | notApplicable => exact ih
    | _ => exact asks_pure _ _

private theorem asks_denyPolicies {qs} {cs : List (EvalM Decision)} (h : AsksAll qs cs) :
    ∀ b, Asks qs (denyOverridesPolicies b cs) := by
  induction h with
  | nil => intro b; unfold denyOverridesPolicies; split <;> exact asks_pure _ _
  | cons h1 h2 ih =>
    intro b
    unfold denyOverridesPolicies
    refine asks_bind h1 fun d => ?_
    cases d with
    | permit => exact ih _
    | notApplicable => exact ih _
    | _ => exact asks_pure _ _

private theorem asks_permitPolicies {qs} {cs : List (EvalM Decision)} (h : AsksAll qs cs) :
    ∀ a b, Asks qs (permitOverridesPolicies a b cs) := by
  induction h with
  | nil => intro a b; unfold permitOverridesPolicies; (repeat' split) <;> exact asks_pure _ _
  | cons h1 h2 ih =>
    intro a b
    unfold permitOverridesPolicies
    refine asks_bind h1 fun d => ?_
    cases d with
    | permit => exact asks_pure _ _
    | _ => exact ih _ _

private theorem asks_base {env : Env} {r : Request} {hdr : Header} {m : EvalM Decision} {qs} (h : Asks qs m) :
    Asks (queriesFor r.data (askedByTarget hdr.target) ++ qs) (policyBaseEvaluate env hdr (some r) m) := by
  unfold policyBaseEvaluate
  refine asks_catchAll (asks_bind (asks_target env r _) fun tm => ?_)
  split
  · exact asks_pure _ _
  · exact h

private theorem asks_rules (env : Env) (r : Request) : ∀ rules : List Rule,
    AsksAll (queriesFor r.data (rules.flatMap askedByRule)) ((rules.map (Rule.child env (some r))).map RuleChild.run)
  | [] => .nil
  | rule :: rules => by
    rw [List.flatMap_cons, queriesFor_append]
    exact .cons (asks_rule env r rule) (asks_rules env r rules)

mutual
private theorem asks_policy (env : Env) (r : Request) : ∀ p : PolicyNode,
    Asks (queriesFor r.data (askedByPolicy p)) (p.evaluate env (some r))
  | .policy hdr rules => by
    unfold PolicyNode.evaluate askedByPolicy
    rw [queriesFor_append]
    refine asks_base ?_
    unfold combineRules
    split
    · exact asks_throw _ _
    · exact asks_denyRules (asks_rules env r rules) _
    · exact asks_permitRules (asks_rules env r rules) _
    · exact asks_first (asks_rules env r rules)
  | .policySet hdr ps => by
    unfold PolicyNode.evaluate askedByPolicy
    rw [queriesFor_append]
    refine asks_base ?_
    unfold combinePolicies
    split
    · exact asks_throw _ _
    · exact asks_denyPolicies (asks_policies env r ps) _
    · exact asks_permitPolicies (asks_policies env r ps) _ _
    · exact asks_first (asks_policies env r ps)
private theorem asks_policies (env : Env) (r : Request) : ∀ ps : List PolicyNode,
    AsksAll (queriesFor r.data (askedByPolicies ps)) (PolicyNode.evaluators env (some r) ps)
  | [] => by unfold PolicyNode.evaluators askedByPolicies; exact .nil
  | p :: ps => by
    unfold PolicyNode.evaluators askedByPolicies
    rw [queriesFor_append]
    exact .cons (asks_policy env r p) (asks_policies env r ps)
end

private theorem response_world (env : Env) (p : PolicyNode) (ctx : Ctx) (w : World) :
    (pdpEvaluate env (some p) ctx w).2 = (p.evaluate env ctx w).2 := by
  simp only [pdpEvaluate, PolicyNode.evaluateResponse]
  obtain ⟨d, w', h⟩ := policy_evaluate_ok env p ctx w
  rw [h]

/-- **C86.** While a request is decided the context handler is asked about this request only, and only for subject
attributes that the policy designates, in the order in which it designates them: the queries are among those made of
one per subject and designator. In particular there are at most as many as subjects times designators. -/
theorem C86_queries (env : Env) (p : PolicyNode) (r : Request) (w : World) :
    ∃ l : List PipQuery, (pdpEvaluate env (some p) (some r) w).2.pipLog = w.pipLog ++ l ∧
      l.Sublist (queriesFor r.data (askedByPolicy p)) ∧
      l.length ≤ r.data.subjects.length * (askedByPolicy p).length := by
  rw [response_world]
  obtain ⟨l, e, s⟩ := asks_policy env r p w
  refine ⟨l, e, s, Nat.le_trans s.length_le ?_⟩
  have : ∀ ds : List Designator, (queriesFor r.data ds).length = r.data.subjects.length * ds.length := by
    intro ds
    induction ds with
    | nil => rfl
    | cons d ds ih =>
      rw [show queriesFor r.data (d :: ds) = List.replicate r.data.subjects.length ⟨r.data, d⟩ ++ queriesFor r.data ds from rfl,
        List.length_append, ih, List.length_replicate, List.length_cons, Nat.mul_succ, Nat.add_comm]
  rw [this]; exact Nat.le_refl _

/-! ## Nothing is asked after the decision -/

private theorem deny_settled {cs ds : List RuleChild} : ∀ (f : Flags) {w w' : World},
    denyOverridesRules f cs w = (.ok .deny, w') → denyOverridesRules f (cs ++ ds) w = (.ok .deny, w') := by
  induction cs with
  | nil =>
    intro f w w' h
    unfold denyOverridesRules at h
    split at h
    · cases h
    · split at h
      · cases h
      · split at h <;> cases h
  | cons c cs ih =>
    intro f w w' h
    rw [List.cons_append]
    unfold denyOverridesRules at h ⊢
    rw [run_bind_eq_ok] at h ⊢
    obtain ⟨d, w1, h1, h2⟩ := h
    refine ⟨d, w1, h1, ?_⟩
    cases d with
    | deny => exact h2
    | permit => exact ih _ h2
    | notApplicable => exact ih _ h2
    | indeterminate =>
      cases he : c.effect with
      | none => rw [he] at h2; cases h2
      | some e => rw [he] at h2; cases e <;> exact ih _ h2

private theorem permit_settled {cs ds : List RuleChild} : ∀ (f : Flags) {w w' : World},
    permitOverridesRules f cs w = (.ok .permit, w') → permitOverridesRules f (cs ++ ds) w = (.ok .permit, w') := by
  induction cs with
  | nil =>
    intro f w w' h
    unfold permitOverridesRules at h
    split at h
    · cases h
    · split at h
      · cases h
      · split at h <;> cases h
  | cons c cs ih =>
    intro f w w' h
    rw [List.cons_append]
    unfold permitOverridesRules at h ⊢
    rw [run_bind_eq_ok] at h ⊢
    obtain ⟨d, w1, h1, h2⟩ := h
    refine ⟨d, w1, h1, ?_⟩
    cases d with
    | deny => exact ih _ h2
    | permit => exact h2
    | notApplicable => exact ih _ h2
    | indeterminate =>
      cases he : c.effect with
      | none => rw [he] at h2; cases h2
      | some e => rw [he] at h2; cases e <;> exact ih _ h2

private theorem first_settled {cs ds : List (EvalM Decision)} : ∀ {w w' : World} {x : Except Exc Decision},
    firstApplicable cs w = (x, w') → x ≠ .ok .notApplicable → firstApplicable (cs ++ ds) w = (x, w') := by
  induction cs with
  | nil => intro w w' x h hx; cases h; exact absurd rfl hx
  | cons c cs ih =>
    intro w w' x h hx
    rw [List.cons_append]
    unfold firstApplicable at h ⊢
    rw [run_bind] at h ⊢
    rcases hc : c w with ⟨y, w1⟩
    rw [hc] at h
    cases y with
    | error e => exact h
    | ok d =>
      cases d with
      | notApplicable => exact ih h hx
      | _ => exact h

private theorem denyPolicies_settled {cs ds : List (EvalM Decision)} : ∀ (b : Bool) {w w' : World},
    denyOverridesPolicies b cs w = (.ok .deny, w') → denyOverridesPolicies b (cs ++ ds) w = (.ok .deny, w') := by
  induction cs with
  | nil => intro b w w' h; unfold denyOverridesPolicies at h; split at h <;> cases h
  | cons c cs ih =>
    intro b w w' h
    rw [List.cons_append]
    unfold denyOverridesPolicies at h ⊢
    rw [run_bind_eq_ok] at h ⊢
    obtain ⟨d, w1, h1, h2⟩ := h
    refine ⟨d, w1, h1, ?_⟩
    cases d with
    | permit => exact ih _ h2
    | notApplicable => exact ih _ h2
    | _ => exact h2

private theorem permitPolicies_settled {cs ds : List (EvalM Decision)} : ∀ (a b : Bool) {w w' : World},
    permitOverridesPolicies a b cs w = (.ok .permit, w') → permitOverridesPolicies a b (cs ++ ds) w = (.ok .permit, w') := by
  induction cs with
  | nil =>
    intro a b w w' h
    unfold permitOverridesPolicies at h
    split at h
    · cases h
    · split at h <;> cases h
  | cons c cs ih =>
    intro a b w w' h
    rw [List.cons_append]
    unfold permitOverridesPolicies at h ⊢
    rw [run_bind_eq_ok] at h ⊢
    obtain ⟨d, w1, h1, h2⟩ := h
    refine ⟨d, w1, h1, ?_⟩
    cases d with
    | permit => exact h2
    | _ => exact ih _ _ h2

/-- What happens after the target, if it gives a decision other than those of the target itself. -/
private theorem base_settled {env : Env} {hdr : Header} {ctx : Ctx} {m m' : EvalM Decision} {w w' : World} {d : Decision}
    (h : policyBaseEvaluate env hdr ctx m w = (.ok d, w'))
    (hm : ∀ w x w', m w = (x, w') → (x = .ok d ∨ (d = .indeterminate ∧ ∃ e, x = .error e)) → m' w = (x, w')) :
    policyBaseEvaluate env hdr ctx m' w = (.ok d, w') := by
  unfold policyBaseEvaluate catchAll at h ⊢
  rw [run_bind] at h ⊢
  rcases ht : targetMatch env hdr.target ctx w with ⟨_ | tm, w1⟩
  · rw [ht] at h; exact h
  · rw [ht] at h
    cases tm with
    | false => exact h
    | true =>
      simp only [Bool.not_true, Bool.false_eq_true, if_false] at h ⊢
      rcases hx : m w1 with ⟨x, w2⟩
      rw [hx] at h
      cases x with
      | error e =>
        simp only [Prod.mk.injEq, Except.ok.injEq] at h
        rw [hm w1 _ w2 hx (.inr ⟨h.1.symm, e, rfl⟩)]
        simp [h.1, h.2]
      | ok d' =>
        simp only [Prod.mk.injEq, Except.ok.injEq] at h
        obtain ⟨rfl, rfl⟩ := h
        rw [hm w1 _ w2 hx (.inl rfl)]

/-- **C86.** Once the rules so far settle the decision, later rules are not looked at: whatever follows, the decision
and everything that is asked stay the same. -/
theorem C86_settled_rules (env : Env) (ctx : Ctx) (hdr : Header) (alg : Alg) (ha : hdr.alg = some alg) (rules more : List Rule)
    (w w' : World) (d : Decision) (hd : Settles alg d)
    (h : (PolicyNode.policy hdr rules).evaluate env ctx w = (.ok d, w')) :
    (PolicyNode.policy hdr (rules ++ more)).evaluate env ctx w = (.ok d, w') := by
  unfold PolicyNode.evaluate at h ⊢
  refine base_settled h fun w1 x w2 hx hor => ?_
  rw [ha, List.map_append] at *
  cases alg with
  | denyOverrides =>
    cases hd
    rcases hor with rfl | ⟨h, -⟩
    · exact deny_settled _ hx
    · cases h
  | permitOverrides =>
    cases hd
    rcases hor with rfl | ⟨h, -⟩
    · exact permit_settled _ hx
    · cases h
  | firstApplicable =>
    simp only [combineRules, List.map_append] at hx ⊢
    refine first_settled hx ?_
    rcases hor with rfl | ⟨-, e, rfl⟩
    · intro h; injection h with h; exact hd h
    · intro h; cases h

/-- **C86.** The same for the policies of a policy set. -/
theorem C86_settled_policies (env : Env) (ctx : Ctx) (hdr : Header) (alg : Alg) (ha : hdr.alg = some alg)
    (ps more : List PolicyNode) (w w' : World) (d : Decision) (hd : Settles alg d)
    (h : (PolicyNode.policySet hdr ps).evaluate env ctx w = (.ok d, w')) :
    (PolicyNode.policySet hdr (ps ++ more)).evaluate env ctx w = (.ok d, w') := by
  unfold PolicyNode.evaluate at h ⊢
  refine base_settled h fun w1 x w2 hx hor => ?_
  rw [evaluators_eq_map] at hx ⊢
  rw [ha] at hx ⊢
  rw [List.map_append]
  cases alg with
  | denyOverrides =>
    cases hd
    rcases hor with rfl | ⟨h, -⟩
    · exact denyPolicies_settled _ hx
    · cases h
  | permitOverrides =>
    cases hd
    rcases hor with rfl | ⟨h, -⟩
    · exact permitPolicies_settled _ _ hx
    · cases h
  | firstApplicable =>
    refine first_settled hx ?_
    rcases hor with rfl | ⟨-, e, rfl⟩
    · intro h; injection h with h; exact hd h
    · intro h; cases h

section NonVacuity
open Samples
/-- A policy for admins that denies, although later rules would permit. -/
def Samples.askingPolicy : PolicyNode :=
  .policy (hdr .denyOverrides (some (roleTarget "admin")))
    [roleRule .deny "admin", { roleRule .deny "guest" with condition := some ⟨some (.designator .subject missingDes)⟩ }, always .permit]
example : askedByPolicy askingPolicy = [roleDes, roleDes, roleDes, missingDes] := by rfl
/-- Only the target and the first rule ask: once for each of the two subjects. -/
example : (pdpEvaluate env (some askingPolicy) (some twoSubjects) w0).2.pipLog =
    List.replicate 4 ⟨twoSubjects.data, roleDes⟩ := by rfl
example : (PolicyNode.policy (hdr .denyOverrides) [always .permit, roleRule .deny "admin"]).evaluate env ctx w0 = (.ok .deny, w0) := by rfl
example : Settles .denyOverrides .deny := rfl
example : (PolicyNode.policySet (hdr .firstApplicable) [.policy (hdr .denyOverrides) [failing .deny]]).evaluate env ctx w0 =
    (.ok .indeterminate, w0) := by rfl
example : Settles .firstApplicable .indeterminate := by simp [Settles]
end NonVacuity

end Xacml
