import Verif.Spec.Relevance
import Verif.Props.Designator
import Verif.Spec.Samples

/-!
# C68, C69: what decisions depend on
-/
namespace Xacml
open Spec

private theorem designatorEval_same (env : Env) {r r' : Request} {cat : Category} {d : Designator}
    (h : LooksSame r r' (.designator cat d)) :
    designatorEval env cat d (some r) = designatorEval env cat d (some r') := by
  rcases h with ⟨h, hp⟩ | ⟨h1, h2⟩
  case inr =>
    have hs : ∀ l b, collectSubjects r' d b l = collectSubjects r d b l := by
      intro l
      induction l with
      | nil => intro; rfl
      | cons s l ih => intro b; simp only [collectSubjects, h1, h2, ih]
    cases cat <;> simp only [designatorEval, h1, hs]
  funext w
  cases ha : attributesOf cat r.data with
  | none =>
    cases ha' : attributesOf cat r'.data with
    | none => rw [(C13_otherwise env cat d r w).2.1 ha, (C13_otherwise env cat d r' w).2.1 ha']
    | some as => rw [ha, ha'] at h; simp at h
  | some as =>
    cases ha' : attributesOf cat r'.data with
    | none => rw [ha, ha'] at h; simp at h
    | some as' =>
      rw [ha, ha'] at h
      simp only [Option.map_some, Option.some.injEq] at h
      by_cases hty : ∀ v ∈ designated d as, WellTyped env.classMap d.dataType v
      · rw [C13_designator_exact env cat d r w as (fun hc => (hp hc).1) ha hty,
          C13_designator_exact env cat d r' w as' (fun hc => (hp hc).2) ha' (by rw [← h]; exact hty), h]
      · have hex : ∃ v ∈ designated d as, ¬ WellTyped env.classMap d.dataType v := by
          simpa using hty
        rw [(C13_otherwise env cat d r w).1 as (fun hc => (hp hc).1) ha hex,
          (C13_otherwise env cat d r' w).1 as' (fun hc => (hp hc).2) ha' (by rw [← h]; exact hex)]

private theorem selectorEval_same (env : Env) {r r' : Request} {s : Selector}
    (h : LooksSame r r' (.selector s)) : selectorEval env s (some r) = selectorEval env s (some r') := by
  have h : r.attributeSelector.map (· s.path) = r'.attributeSelector.map (· s.path) := h
  unfold selectorEval
  cases hx : r.attributeSelector with
  | none => cases hx' : r'.attributeSelector with
    | none => simp only [hx, hx']
    | some x => rw [hx, hx'] at h; simp at h
  | some x => cases hx' : r'.attributeSelector with
    | none => rw [hx, hx'] at h; simp at h
    | some x' =>
      rw [hx, hx'] at h
      simp only [Option.map_some, Option.some.injEq] at h
      simp only [hx, hx', h]

mutual
private theorem expr_same (env : Env) {r r' : Request} : (e : Expr) →
    (∀ l, InExpr l e → LooksSame r r' l) → e.evaluate env (some r) = e.evaluate env (some r')
  | .value v, _ => rfl
  | .designator cat d, h => designatorEval_same env (h _ (.designator rfl))
  | .selector s, h => by simp only [Expr.evaluate]; rw [selectorEval_same env (h _ (.selector rfl))]
  | .apply f args, h => by
    simp only [Expr.evaluate]
    rw [exprs_same env args fun e he l hl => h l (.apply he hl)]
private theorem exprs_same (env : Env) {r r' : Request} : (es : List Expr) →
    (∀ e ∈ es, ∀ l, InExpr l e → LooksSame r r' l) →
    Expr.evaluateList env (some r) es = Expr.evaluateList env (some r') es
  | [], _ => rfl
  | e :: es, h => by
    simp only [Expr.evaluateList]
    rw [expr_same env e (h e (by simp)), exprs_same env es fun e he => h e (by simp [he])]
end

private theorem match_same (env : Env) {r r' : Request} (m : Match) (h : ∀ l, InMatch l m → LooksSame r r' l) :
    m.evaluate env (some r) = m.evaluate env (some r') := by
  have : m.requestValues env (some r) = m.requestValues env (some r') := by
    unfold Match.requestValues
    cases hd : m.designator with
    | some p =>
      obtain ⟨cat, d⟩ := p
      exact designatorEval_same env (h _ (.inl ⟨cat, d, hd, rfl⟩))
    | none =>
      cases hs : m.selector with
      | none => rfl
      | some s => simp only; rw [selectorEval_same env (h _ (.inr ⟨s, hs, rfl⟩))]
  unfold Match.evaluate
  rw [this]

private theorem matches_same (env : Env) {r r' : Request} (ms : List Match)
    (h : ∀ m ∈ ms, ∀ l, InMatch l m → LooksSame r r' l) :
    evalMatches env (some r) ms = evalMatches env (some r') ms := by
  induction ms with
  | nil => rfl
  | cons m ms ih =>
    simp only [evalMatches]
    rw [match_same env m (h m (by simp)), ih fun m hm => h m (by simp [hm])]

private theorem section_same (env : Env) {r r' : Request} (cs : List TargetChild)
    (h : ∀ c ∈ cs, ∀ m ∈ c.matches_, ∀ l, InMatch l m → LooksSame r r' l) :
    matchSection env (some r) cs = matchSection env (some r') cs := by
  have : ∀ b, sectionLoop env (some r) b cs = sectionLoop env (some r') b cs := by
    induction cs with
    | nil => intro; rfl
    | cons c cs ih =>
      intro b
      simp only [sectionLoop, matchChild]
      rw [matches_same env c.matches_ (h c (by simp))]
      congr 1
      funext b'
      exact ih (fun c hc => h c (by simp [hc])) _
  unfold matchSection
  rw [this]

private theorem target_same (env : Env) {r r' : Request} (t : Option Target)
    (h : ∀ l, InTarget l t → LooksSame r r' l) : targetMatch env t (some r) = targetMatch env t (some r') := by
  cases t with
  | none => rfl
  | some t =>
    have sec : ∀ cs, (∀ c ∈ cs, c ∈ t.subjects ++ t.resources ++ t.actions ++ t.environments) →
        matchSection env (some r) cs = matchSection env (some r') cs := fun cs hcs =>
      section_same env cs fun c hc m hm l hl => h l ⟨t, rfl, c, hcs c hc, m, hm, hl⟩
    simp only [targetMatch, Target.match_]
    rw [sec t.subjects (by simp +contextual), sec t.resources (by simp +contextual),
      sec t.actions (by simp +contextual), sec t.environments (by simp +contextual)]

private theorem rule_same (env : Env) {r r' : Request} (rule : Rule)
    (h : ∀ l, InRule l rule → LooksSame r r' l) : rule.child env (some r) = rule.child env (some r') := by
  have ht := target_same env rule.target fun l hl => h l (.inl hl)
  have hc : ∀ c, rule.condition = some c → c.evaluate env (some r) = c.evaluate env (some r') := by
    intro c hc
    unfold Condition.evaluate
    cases he : c.expression with
    | none => rfl
    | some e => exact expr_same env e fun l hl => h l (.inr ⟨c, e, hc, he, hl⟩)
  unfold Rule.child Rule.evaluate Rule.body
  rw [ht]
  cases hcond : rule.condition with
  | none => rfl
  | some c => simp only [hc c hcond]

mutual
private theorem policy_same (env : Env) {r r' : Request} : (p : PolicyNode) →
    (∀ l, InPolicy l p → LooksSame r r' l) → p.evaluate env (some r) = p.evaluate env (some r')
  | .policy hdr rules, h => by
    have hr : rules.map (Rule.child env (some r)) = rules.map (Rule.child env (some r')) :=
      List.map_congr_left fun rule hm => rule_same env rule fun l hl => h l (.rule hm hl)
    simp only [PolicyNode.evaluate, policyBaseEvaluate]
    rw [hr, target_same env hdr.target fun l hl => h l (.policyTarget hl)]
  | .policySet hdr ps, h => by
    simp only [PolicyNode.evaluate, policyBaseEvaluate]
    rw [target_same env hdr.target fun l hl => h l (.setTarget hl),
      policies_same env ps fun p hp l hl => h l (.child hp hl)]
private theorem policies_same (env : Env) {r r' : Request} : (ps : List PolicyNode) →
    (∀ p ∈ ps, ∀ l, InPolicy l p → LooksSame r r' l) →
    PolicyNode.evaluators env (some r) ps = PolicyNode.evaluators env (some r') ps
  | [], _ => rfl
  | p :: ps, h => by
    simp only [PolicyNode.evaluators]
    rw [policy_same env p (h p (by simp)), policies_same env ps fun p hp => h p (by simp [hp])]
end

/-- C68: two requests that look the same through every designator and selector of a policy get the same
response, whatever else differs between them. -/
theorem C68_relevant (env : Env) (p : PolicyNode) (r r' : Request) (h : ∀ l, InPolicy l p → LooksSame r r' l)
    (w : World) : pdpEvaluate env (some p) (some r) w = pdpEvaluate env (some p) (some r') w := by
  simp only [pdpEvaluate, PolicyNode.evaluateResponse]
  rw [policy_same env p h]

private theorem designated_filter (d : Designator) (keep : Attribute → Bool) (as : List Attribute)
    (h : ∀ a ∈ as, AttrSelected d a → keep a = true) : designated d (as.filter keep) = designated d as := by
  induction as with
  | nil => rfl
  | cons a as ih =>
    have ih := ih fun a ha => h a (by simp [ha])
    by_cases hk : keep a = true
    · rw [List.filter_cons_of_pos hk, designated_cons, designated_cons, ih]
    · rw [List.filter_cons_of_neg hk, designated_cons, ih]
      rw [if_neg fun hs => hk (h a (by simp) hs)]
      rfl

/-- C68, attributes the policy does not name: taking away from a request (or adding to it) any attributes that no
designator of the policy selects changes nothing. -/
theorem C68_unnamed (env : Env) (p : PolicyNode) (r : Request) (keep : Category → Attribute → Bool)
    (hk : ∀ cat d, InPolicy (.designator cat d) p → ∀ a, a.attributeId = d.attributeId → keep cat a = true)
    (hp : ∀ d, InPolicy (.designator .subject d) p → r.ctxHandler = none) (w : World) :
    pdpEvaluate env (some p) (some { r with data := restrict keep r.data }) w =
      pdpEvaluate env (some p) (some r) w := by
  refine C68_relevant env p _ _ (fun l hl => ?_) w
  cases l with
  | selector s => rfl
  | designator cat d =>
    have key : ∀ as, designated d (as.filter (keep cat)) = designated d as := fun as =>
      designated_filter d _ as fun a _ ha => hk cat d hl a ha.1
    refine .inl ⟨?_, fun hc => ?_⟩
    · cases cat with
      | subject =>
        simp only [attributesOf, restrict, Option.map_some, List.flatMap_map]
        rw [← List.filter_flatMap, key]
      | resource =>
        simp only [attributesOf, restrict, Option.map_some, List.flatMap_map]
        rw [← List.filter_flatMap, key]
      | action => simp only [attributesOf, restrict, Option.map_map]; congr 1; funext as; exact key as
      | environment => simp only [attributesOf, restrict, Option.map_map]; congr 1; funext as; exact key as
    · subst hc; exact ⟨hp d hl, hp d hl⟩

/-- C68, subjects: without a context handler neither the categories of the subjects nor how attributes are
distributed over subjects and over resources matters, nor resource content (except to selectors). -/
theorem C68_grouping (env : Env) (p : PolicyNode) (r r' : Request) (hx : r.attributeSelector = r'.attributeSelector)
    (hp : r.ctxHandler = none) (hp' : r'.ctxHandler = none)
    (hs : r.data.subjects.flatMap (·.attributes) = r'.data.subjects.flatMap (·.attributes))
    (hr : r.data.resources.flatMap (·.attributes) = r'.data.resources.flatMap (·.attributes))
    (ha : r.data.action = r'.data.action) (he : r.data.environment = r'.data.environment) (w : World) :
    pdpEvaluate env (some p) (some r) w = pdpEvaluate env (some p) (some r') w := by
  refine C68_relevant env p _ _ (fun l _ => ?_) w
  cases l with
  | selector s => simp only [LooksSame, hx]
  | designator cat d => exact .inl ⟨by cases cat <;> simp only [attributesOf, hs, hr, ha, he], fun _ => ⟨hp, hp'⟩⟩

/-- A policy about roles: the action of a request can be dropped, its roles can not. -/
example : let p := PolicyNode.policy (Samples.hdr .denyOverrides) [Samples.roleRule .permit "staff"]
    let keep : Category → Attribute → Bool := fun _ a => a.attributeId == some "role"
    (∀ cat d, InPolicy (.designator cat d) p → ∀ a, a.attributeId = d.attributeId → keep cat a = true) ∧
    (restrict keep Samples.data).action = some [] ∧ Samples.data.action ≠ some [] ∧
    (pdpEvaluate Samples.env (some p) (some { Samples.req with data := restrict keep Samples.data }) Samples.w0).1
      = .ok { results := [{ decision := .permit, status := .ok }] } ∧
    (pdpEvaluate Samples.env (some p) (some { Samples.req with data := restrict (fun _ _ => false) Samples.data }) Samples.w0).1
      = .ok { results := [{ decision := .indeterminate, status := .ok }] } := by
  refine ⟨?_, rfl, by decide, rfl, rfl⟩
  intro cat d h a ha
  cases h with
  | policyTarget h => obtain ⟨_, h, _⟩ := h; cases h
  | rule hm h =>
    simp only [List.mem_singleton] at hm
    subst hm
    rcases h with ⟨t, ht, c, hc, m, hm, h⟩ | ⟨c, _, h, _⟩
    · cases ht
      simp only [Samples.roleTarget, List.append_nil, List.mem_singleton] at hc
      subst hc
      simp only [List.mem_singleton] at hm
      subst hm
      rcases h with ⟨cat', d', h, h'⟩ | ⟨s, h, _⟩
      · cases h; cases h'; simp [ha, Samples.roleDes]
      · cases h
    · cases h

/-- Two subjects of different categories are one. -/
example : let r : Request := { Samples.req with data := { Samples.data with
      subjects := [⟨some "a", [Samples.roleAttr ["admin"]]⟩, ⟨some "b", [Samples.actAttr "x"]⟩] } }
    let r' : Request := { Samples.req with data := { Samples.data with
      subjects := [⟨none, [Samples.roleAttr ["admin"], Samples.actAttr "x"]⟩] } }
    r.data ≠ r'.data ∧ r.data.subjects.flatMap (·.attributes) = r'.data.subjects.flatMap (·.attributes) := by
  exact ⟨by decide, rfl⟩

/-! ## C69 -/

private theorem children_sameLogic (env : Env) (ctx : Ctx) : (rs rs' : List Rule) →
    rs.map (fun r => (r.effect, r.target, r.condition)) = rs'.map (fun r => (r.effect, r.target, r.condition)) →
    rs.map (Rule.child env ctx) = rs'.map (Rule.child env ctx)
  | [], [], _ => rfl
  | [], _ :: _, h => by simp at h
  | _ :: _, [], h => by simp at h
  | r :: rs, r' :: rs', h => by
    simp only [List.map_cons, List.cons.injEq, Prod.mk.injEq] at h
    obtain ⟨⟨h1, h2, h3⟩, h4⟩ := h
    simp only [List.map_cons, children_sameLogic env ctx rs rs' h4, Rule.child, Rule.evaluate, Rule.body, h1, h2, h3]

mutual
private theorem policy_sameLogic (env : Env) (ctx : Ctx) : (p p' : PolicyNode) → SameLogic p p' →
    p.evaluate env ctx = p'.evaluate env ctx
  | .policy h rs, .policy h' rs', hs => by
    obtain ⟨h1, h2, h3⟩ := hs
    simp only [PolicyNode.evaluate, policyBaseEvaluate, h1, h2, children_sameLogic env ctx rs rs' h3]
  | .policySet h ps, .policySet h' ps', hs => by
    obtain ⟨h1, h2, h3⟩ := hs
    simp only [PolicyNode.evaluate, policyBaseEvaluate, h1, h2, policies_sameLogic env ctx ps ps' h3]
  | .policy _ _, .policySet _ _, hs => hs.elim
  | .policySet _ _, .policy _ _, hs => hs.elim
private theorem policies_sameLogic (env : Env) (ctx : Ctx) : (ps ps' : List PolicyNode) → SameLogics ps ps' →
    PolicyNode.evaluators env ctx ps = PolicyNode.evaluators env ctx ps'
  | [], [], _ => rfl
  | p :: ps, p' :: ps', hs => by
    simp only [PolicyNode.evaluators, policy_sameLogic env ctx p p' hs.1, policies_sameLogic env ctx ps ps' hs.2]
  | [], _ :: _, hs => hs.elim
  | _ :: _, [], hs => hs.elim
end

/-- C69: identifiers, versions, descriptions, XPath versions and obligations, of rules, policies and policy sets at
any depth, never influence a response. -/
theorem C69_labels (env : Env) (p p' : PolicyNode) (h : SameLogic p p') (ctx : Ctx) (w : World) :
    pdpEvaluate env (some p) ctx w = pdpEvaluate env (some p') ctx w := by
  simp only [pdpEvaluate, PolicyNode.evaluateResponse]
  rw [policy_sameLogic env ctx p p' h]

example : SameLogic
    (.policySet { Samples.hdr .denyOverrides with ident := some "a", obligations := [⟨some "o", some "Deny"⟩] }
      [.policy (Samples.hdr .firstApplicable) [{ Samples.always .permit with id := some "r", description := some "x" }]])
    (.policySet { Samples.hdr .denyOverrides with version := "1.0" }
      [.policy (Samples.hdr .firstApplicable) [Samples.always .permit]]) :=
  ⟨rfl, rfl, ⟨rfl, rfl, rfl⟩, trivial⟩

end Xacml
