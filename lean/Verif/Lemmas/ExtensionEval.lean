import Verif.Spec.Extension

/-!
# Lemmas: evaluation depends on the class map through the readings of the policy only
-/
namespace Xacml
open Spec

/-- A reading gives the same with two class maps. -/
def SeesSame (env env' : Env) (ctx : Ctx) : Reading → Prop
  | .designator cat d => designatorEval env cat d ctx = designatorEval env' cat d ctx
  | .selector s => selectorEval env s ctx = selectorEval env' s ctx

section
variable {env env' : Env} (hre : env.re = env'.re) (hdb : env.debug = env'.debug) {ctx : Ctx}

include hre in
theorem func_env (f : Func) (args : List PyVal) : f.evaluate env args = f.evaluate env' args := by
  have hr : ∀ t args, regexpMatchFn env t args = regexpMatchFn env' t args := by
    intro t args
    unfold regexpMatchFn getRegex
    rw [hre]
  cases f <;> simp only [Func.evaluate, hr]

include hre in
mutual
theorem expr_env : (e : Expr) → (∀ l, InExpr l e → SeesSame env env' ctx l) → e.evaluate env ctx = e.evaluate env' ctx
  | .value v, _ => rfl
  | .designator cat d, h => h _ (.designator rfl)
  | .selector s, h => by
    simp only [Expr.evaluate]
    rw [show selectorEval env s ctx = selectorEval env' s ctx from h _ (.selector rfl)]
  | .apply f args, h => by
    simp only [Expr.evaluate, func_env hre]
    rw [exprs_env args fun e he l hl => h l (.apply he hl)]
theorem exprs_env : (es : List Expr) → (∀ e ∈ es, ∀ l, InExpr l e → SeesSame env env' ctx l) →
    Expr.evaluateList env ctx es = Expr.evaluateList env' ctx es
  | [], _ => rfl
  | e :: es, h => by
    simp only [Expr.evaluateList]
    rw [expr_env e (h e (by simp)), exprs_env es fun e he => h e (by simp [he])]
end

include hre hdb

theorem match_env (m : Match) (h : ∀ l, InMatch l m → SeesSame env env' ctx l) :
    m.evaluate env ctx = m.evaluate env' ctx := by
  have hv : m.requestValues env ctx = m.requestValues env' ctx := by
    unfold Match.requestValues
    cases hd : m.designator with
    | some p =>
      obtain ⟨cat, d⟩ := p
      exact h _ (.inl ⟨cat, d, hd, rfl⟩)
    | none =>
      cases hs : m.selector with
      | none => rfl
      | some s =>
        simp only
        rw [show selectorEval env s ctx = selectorEval env' s ctx from h _ (.inr ⟨s, hs, rfl⟩)]
  have ho : ∀ v, matchOne env m v = matchOne env' m v := by
    intro v; unfold matchOne; simp only [func_env hre, hdb]
  have hl : ∀ vs, matchLoop env m vs = matchLoop env' m vs := by
    intro vs
    induction vs with
    | nil => rfl
    | cons v vs ih => simp only [matchLoop, ho, ih]
  unfold Match.evaluate
  rw [hv]
  simp only [hl]

theorem matches_env (ms : List Match) (h : ∀ m ∈ ms, ∀ l, InMatch l m → SeesSame env env' ctx l) :
    evalMatches env ctx ms = evalMatches env' ctx ms := by
  induction ms with
  | nil => rfl
  | cons m ms ih =>
    simp only [evalMatches]
    rw [match_env hre hdb m (h m (by simp)), ih fun m hm => h m (by simp [hm])]

theorem section_env (cs : List TargetChild)
    (h : ∀ c ∈ cs, ∀ m ∈ c.matches_, ∀ l, InMatch l m → SeesSame env env' ctx l) :
    matchSection env ctx cs = matchSection env' ctx cs := by
  have : ∀ b, sectionLoop env ctx b cs = sectionLoop env' ctx b cs := by
    induction cs with
    | nil => intro; rfl
    | cons c cs ih =>
      intro b
      simp only [sectionLoop, matchChild]
      rw [matches_env hre hdb c.matches_ (h c (by simp))]
      congr 1
      funext b'
      exact ih (fun c hc => h c (by simp [hc])) _
  unfold matchSection
  rw [this]

theorem target_env (t : Option Target) (h : ∀ l, InTarget l t → SeesSame env env' ctx l) :
    targetMatch env t ctx = targetMatch env' t ctx := by
  cases t with
  | none => rfl
  | some t =>
    have sec : ∀ cs, (∀ c ∈ cs, c ∈ t.subjects ++ t.resources ++ t.actions ++ t.environments) →
        matchSection env ctx cs = matchSection env' ctx cs := fun cs hcs =>
      section_env hre hdb cs fun c hc m hm l hl => h l ⟨t, rfl, c, hcs c hc, m, hm, hl⟩
    simp only [targetMatch, Target.match_]
    rw [sec t.subjects (by simp +contextual), sec t.resources (by simp +contextual),
      sec t.actions (by simp +contextual), sec t.environments (by simp +contextual)]

theorem rule_env (rule : Rule) (h : ∀ l, InRule l rule → SeesSame env env' ctx l) :
    rule.child env ctx = rule.child env' ctx := by
  have ht := target_env hre hdb rule.target fun l hl => h l (.inl hl)
  have hc : ∀ c, rule.condition = some c → c.evaluate env ctx = c.evaluate env' ctx := by
    intro c hc
    unfold Condition.evaluate
    cases he : c.expression with
    | none => rfl
    | some e => exact expr_env hre e fun l hl => h l (.inr ⟨c, e, hc, he, hl⟩)
  unfold Rule.child Rule.evaluate Rule.body
  rw [ht]
  cases hcond : rule.condition with
  | none => rfl
  | some c => simp only [hc c hcond]

mutual
theorem policy_env : (p : PolicyNode) → (∀ l, InPolicy l p → SeesSame env env' ctx l) →
    p.evaluate env ctx = p.evaluate env' ctx
  | .policy hdr rules, h => by
    have hr : rules.map (Rule.child env ctx) = rules.map (Rule.child env' ctx) :=
      List.map_congr_left fun rule hm => rule_env hre hdb rule fun l hl => h l (.rule hm hl)
    simp only [PolicyNode.evaluate, policyBaseEvaluate]
    rw [hr, target_env hre hdb hdr.target fun l hl => h l (.policyTarget hl)]
  | .policySet hdr ps, h => by
    simp only [PolicyNode.evaluate, policyBaseEvaluate]
    rw [target_env hre hdb hdr.target fun l hl => h l (.setTarget hl),
      policies_env ps fun p hp l hl => h l (.child hp hl)]
theorem policies_env : (ps : List PolicyNode) → (∀ p ∈ ps, ∀ l, InPolicy l p → SeesSame env env' ctx l) →
    PolicyNode.evaluators env ctx ps = PolicyNode.evaluators env' ctx ps
  | [], _ => rfl
  | p :: ps, h => by
    simp only [PolicyNode.evaluators]
    rw [policy_env p (h p (by simp)), policies_env ps fun p hp => h p (by simp [hp])]
end
end

theorem classLookup_known {cm cm' : List (String × AVClass)} (hk : Keeps (fun i => cm.lookup i) (fun i => cm'.lookup i))
    {o : Option String} (h : ∀ dt, o = some dt → (cm.lookup dt).isSome) : classLookup cm' o = classLookup cm o := by
  cases o with
  | none => rfl
  | some dt =>
    obtain ⟨c, hc⟩ := Option.isSome_iff_exists.mp (h dt rfl)
    simp only [classLookup, hc]
    exact hk dt c hc

/-- With more classes, a policy whose data types were known evaluates to the same. -/
theorem pdpEvaluate_classes {env : Env} {cm' : List (String × AVClass)}
    (hk : Keeps (fun i => env.classMap.lookup i) (fun i => cm'.lookup i)) (p : PolicyNode)
    (ht : TypesKnown env.classMap p) (ctx : Ctx) :
    pdpEvaluate { env with classMap := cm' } (some p) ctx = pdpEvaluate env (some p) ctx := by
  have h : ∀ l, InPolicy l p → SeesSame env { env with classMap := cm' } ctx l := by
    intro l hl
    cases l with
    | designator cat d =>
      have := classLookup_known hk fun dt h => ht.1 cat d dt hl h
      unfold SeesSame designatorEval
      simp only [this]
    | selector s =>
      unfold SeesSame selectorEval
      cases hd : s.dataType with
      | none => simp only [hd]
      | some dt =>
        have := classLookup_known hk (o := some dt) fun dt' h => by
          cases h; exact ht.2 s dt hl hd
        simp only [hd, this]
  funext w
  simp only [pdpEvaluate, PolicyNode.evaluateResponse]
  rw [policy_env (env := env) (env' := { env with classMap := cm' }) rfl rfl p h]

end Xacml
