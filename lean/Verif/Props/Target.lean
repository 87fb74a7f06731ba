import Verif.Lemmas.Target
import Verif.Spec.Samples

/-!
# C06–C11: totality, applicability, targets, match elements, rules
-/
namespace Xacml
open Spec

/-! ## C06 -/

/-- C06: with a policy set, `PDP.evaluate` never raises and returns exactly one result. -/
theorem C06_total (env : Env) (p : PolicyNode) (ctx : Ctx) (w : World) :
    ∃ r w', pdpEvaluate env (some p) ctx w = (.ok { results := [r] }, w') ∧
      r.decision ∈ [Decision.permit, .deny, .notApplicable, .indeterminate] ∧
      p.evaluate env ctx w = (.ok r.decision, w') := by
  obtain ⟨d, w', h⟩ := policy_evaluate_ok env p ctx w
  refine ⟨{ Result.createInitialised .notApplicable with decision := d }, w', ?_, ?_, h⟩
  · simp [pdpEvaluate, PolicyNode.evaluateResponse, h]
  · cases d <;> simp

/-- C06: with no policy set, `PDP.evaluate` raises AttributeError and does nothing. -/
theorem C06_no_policy (env : Env) (ctx : Ctx) (w : World) :
    pdpEvaluate env none ctx w = (.error .attributeError, w) := rfl

/-- C06 for every rule, policy and policy set. -/
theorem C06_rule_total (env : Env) (r : Rule) (ctx : Ctx) (w : World) :
    ∃ d w', r.evaluate env ctx w = (.ok d, w') := rule_evaluate_ok env r ctx w

/-! ## C07 -/

/-- What can be switched off by a target: rules, policies and policy sets. -/
inductive Element where
  | rule (r : Rule)
  | policy (p : PolicyNode)

/-- The `target` attribute. -/
def Element.target : Element → Option Target
  | .rule r => r.target
  | .policy (.policy h _) => h.target
  | .policy (.policySet h _) => h.target

/-- The `evaluate` method. -/
def Element.evaluate (env : Env) (ctx : Ctx) : Element → EvalM Decision
  | .rule r => r.evaluate env ctx
  | .policy p => p.evaluate env ctx

private theorem element_gate (env : Env) (ctx : Ctx) (x : Element) :
    ∃ k : EvalM Decision, ∀ w, x.evaluate env ctx w = catchAll (do
      let tm ← targetMatch env x.target ctx
      if !tm then pure .notApplicable else k) w := by
  cases x with
  | rule r => exact ⟨_, fun _ => rfl⟩
  | policy p =>
    cases p with
    | policy h rs => exact ⟨_, fun w => by simp only [Element.evaluate, PolicyNode.evaluate]; rfl⟩
    | policySet h cs => exact ⟨_, fun w => by simp only [Element.evaluate, PolicyNode.evaluate]; rfl⟩

/-- C07: a target that does not match makes the element NotApplicable, and nothing but the
target is evaluated (the world is the one the target left). -/
theorem C07_not_matched (env : Env) (ctx : Ctx) (x : Element) (t : Target) (w w1 : World)
    (ht : x.target = some t) (hm : t.match_ env ctx w = (.ok false, w1)) :
    x.evaluate env ctx w = (.ok .notApplicable, w1) := by
  obtain ⟨k, hk⟩ := element_gate env ctx x
  rw [hk]
  have : targetMatch env x.target ctx w = (.ok false, w1) := by rw [ht]; exact hm
  simp [catchAll, run_bind_ok this]

/-- C07: a target that fails makes the element Indeterminate, and nothing else is evaluated. -/
theorem C07_target_fails (env : Env) (ctx : Ctx) (x : Element) (t : Target) (w w1 : World) (e : Exc)
    (ht : x.target = some t) (hm : t.match_ env ctx w = (.error e, w1)) :
    x.evaluate env ctx w = (.ok .indeterminate, w1) := by
  obtain ⟨k, hk⟩ := element_gate env ctx x
  rw [hk]
  have : targetMatch env x.target ctx w = (.error e, w1) := by rw [ht]; exact hm
  simp [catchAll, run_bind_error this]

/-- Removing the target. -/
def Element.withoutTarget : Element → Element
  | .rule r => .rule { r with target := none }
  | .policy (.policy h rs) => .policy (.policy { h with target := none } rs)
  | .policy (.policySet h cs) => .policy (.policySet { h with target := none } cs)

/-- C07: an element whose target matches behaves, from the world left by the target, as the
same element without a target. -/
theorem C07_matched (env : Env) (ctx : Ctx) (x : Element) (t : Target) (w w1 : World)
    (ht : x.target = some t) (hm : t.match_ env ctx w = (.ok true, w1)) :
    x.evaluate env ctx w = x.withoutTarget.evaluate env ctx w1 := by
  have hm' : targetMatch env (some t) ctx w = (.ok true, w1) := hm
  have hn : targetMatch env none ctx w1 = (.ok true, w1) := rfl
  cases x with
  | rule r =>
    simp only [Element.target] at ht
    simp only [Element.evaluate, Element.withoutTarget, Rule.evaluate, catchAll, Rule.body, ht,
      run_bind_ok hm', run_bind_ok hn]
  | policy p =>
    cases p with
    | policy h rs =>
      simp only [Element.target] at ht
      simp only [Element.evaluate, Element.withoutTarget, PolicyNode.evaluate, policyBaseEvaluate,
        catchAll, ht, run_bind_ok hm', run_bind_ok hn]
    | policySet h cs =>
      simp only [Element.target] at ht
      simp only [Element.evaluate, Element.withoutTarget, PolicyNode.evaluate, policyBaseEvaluate,
        catchAll, ht, run_bind_ok hm', run_bind_ok hn]

/-- C07: an element without target applies: no target behaves as the empty target, which
matches every request. -/
theorem C07_no_target (env : Env) (ctx : Ctx) (w : World) :
    (⟨[], [], [], []⟩ : Target).match_ env ctx w = (.ok true, w) := rfl

/-! ## C08 -/

/-- C08. `s`, `r`, `a`, `e` are the truth values of the match elements of the four sections. -/
theorem C08_target_and_or_and (env : Env) (ctx : Ctx) (t : Target) (w w' : World)
    (s r a e : List (List Bool))
    (hs : Shape t.subjects s) (hr : Shape t.resources r) (ha : Shape t.actions a)
    (he : Shape t.environments e)
    (hrun : Runs ((allMatches t).map (Match.evaluate env · ctx)) w
      (s.flatten ++ r.flatten ++ a.flatten ++ e.flatten) w') :
    ∃ b, t.match_ env ctx w = (.ok b, w') ∧
      (b = true ↔ SectionMatches s ∧ SectionMatches r ∧ SectionMatches a ∧ SectionMatches e) := by
  simp only [allMatches, List.flatMap_append, List.map_append] at hrun
  obtain ⟨w3, h3, h4⟩ := hrun.split_at (by simp [hs.length, hr.length, ha.length])
  obtain ⟨w2, h2, h3⟩ := h3.split_at (by simp [hs.length, hr.length])
  obtain ⟨w1, h1, h2⟩ := h2.split_at (by simp [hs.length])
  obtain ⟨b1, e1, i1⟩ := matchSection_runs hs h1
  obtain ⟨b2, e2, i2⟩ := matchSection_runs hr h2
  obtain ⟨b3, e3, i3⟩ := matchSection_runs ha h3
  obtain ⟨b4, e4, i4⟩ := matchSection_runs he h4
  refine ⟨b1 && b2 && b3 && b4, ?_, ?_⟩
  · simp only [Target.match_, run_bind_ok e1, run_bind_ok e2, run_bind_ok e3, run_bind_ok e4]; rfl
  · rw [← i1, ← i2, ← i3, ← i4]; simp [and_assoc]

/-- C08, converse for failures: the target fails exactly when some match element fails, with
that exception, and no later match element is evaluated. -/
theorem C08_target_fails_iff (env : Env) (ctx : Ctx) (t : Target) (w w' : World) (e : Exc) :
    t.match_ env ctx w = (.error e, w') ↔
      Fails ((allMatches t).map (Match.evaluate env · ctx)) w e w' := by
  have key : ∀ e w', Fails ((allMatches t).map (Match.evaluate env · ctx)) w e w' →
      t.match_ env ctx w = (.error e, w') := by
    intro e w' h
    simp only [allMatches, List.flatMap_append, List.map_append] at h
    have okS : ∀ {cs : List TargetChild} {w as w1},
        Runs ((cs.flatMap (·.matches_)).map (Match.evaluate env · ctx)) w as w1 →
        ∃ b, matchSection env ctx cs w = (.ok b, w1) := by
      intro cs w as w1 hr
      obtain ⟨es, hs, rfl⟩ := exists_shape cs as (by simpa using hr.length)
      obtain ⟨b, hb, _⟩ := matchSection_runs hs hr
      exact ⟨b, hb⟩
    rcases h.split with h | ⟨xs, w3, hx, h4⟩
    · rcases h.split with h | ⟨ys, w2, hy, h3⟩
      · rcases h.split with h | ⟨zs, w1, hz, h2⟩
        · simp only [Target.match_, run_bind_error (matchSection_fails h)]
        · obtain ⟨b, hb⟩ := okS hz
          simp only [Target.match_, run_bind_ok hb, run_bind_error (matchSection_fails h2)]
      · obtain ⟨_, _, _, rfl, h1, h2⟩ := hy.split
        obtain ⟨b1, hb1⟩ := okS h1
        obtain ⟨b2, hb2⟩ := okS h2
        simp only [Target.match_, run_bind_ok hb1, run_bind_ok hb2, run_bind_error (matchSection_fails h3)]
    · obtain ⟨_, _, _, rfl, h12, h3⟩ := hx.split
      obtain ⟨_, _, _, rfl, h1, h2⟩ := h12.split
      obtain ⟨b1, hb1⟩ := okS h1
      obtain ⟨b2, hb2⟩ := okS h2
      obtain ⟨b3, hb3⟩ := okS h3
      simp only [Target.match_, run_bind_ok hb1, run_bind_ok hb2, run_bind_ok hb3,
        run_bind_error (matchSection_fails h4)]
  constructor
  · intro h
    rcases runs_or_fails ((allMatches t).map (Match.evaluate env · ctx)) w with ⟨as, w1, hr⟩ | ⟨e', w1, hf⟩
    · exfalso
      have hr0 := hr
      simp only [allMatches, List.flatMap_append, List.map_append] at hr
      obtain ⟨x, b4, w3, rfl, h123, h4⟩ := hr.split
      obtain ⟨y, b3, w2, rfl, h12, h3⟩ := h123.split
      obtain ⟨b1, b2, w1, rfl, h1, h2⟩ := h12.split
      obtain ⟨s, hs, rfl⟩ := exists_shape _ b1 (by simpa using h1.length)
      obtain ⟨r, hr', rfl⟩ := exists_shape _ b2 (by simpa using h2.length)
      obtain ⟨a, ha, rfl⟩ := exists_shape _ b3 (by simpa using h3.length)
      obtain ⟨e, he, rfl⟩ := exists_shape _ b4 (by simpa using h4.length)
      obtain ⟨b, hb, _⟩ := C08_target_and_or_and env ctx t w _ s r a e hs hr' ha he hr0
      rw [h] at hb; cases hb
    · have := key _ _ hf
      rw [h] at this
      injection this with h1 h2
      injection h1 with h1
      subst h1 h2; exact hf
  · exact key e w'

section NonVacuity
open Samples
def sampleTarget : Target :=
  { subjects := [{ matches_ := [roleMatch "guest"] }, { matches_ := [roleMatch "staff", actMatch "read"] }]
    resources := [], actions := [{ matches_ := [actMatch "read"] }], environments := [] }
example : Shape sampleTarget.subjects [[false], [true, true]] ∧ Shape sampleTarget.resources [] ∧
    Shape sampleTarget.actions [[true]] ∧ Shape sampleTarget.environments [] := by
  simp [Shape, sampleTarget]
example : Runs ((allMatches sampleTarget).map (Match.evaluate env · ctx)) w0
    ([[false], [true, true]].flatten ++ [].flatten ++ [[true]].flatten ++ [].flatten) w0 :=
  .cons (by rfl) (.cons (by rfl) (.cons (by rfl) (.cons (by rfl) (.nil _))))
example : Fails ((allMatches errTarget).map (Match.evaluate env · ctx)) w0 .missingAttributeError w0 :=
  .head (by rfl)
example : (Element.rule (roleRule .permit "guest")).evaluate env ctx w0 = (.ok .notApplicable, w0) := by rfl
example : ∃ t, (Element.rule (roleRule .permit "guest")).target = some t ∧
    t.match_ env ctx w0 = (.ok false, w0) := ⟨_, rfl, rfl⟩
end NonVacuity

/-! ## C09 -/

/-- The verdict the code gives, in the terms of the XACML tables. -/
def codeVerdict : Except Exc Bool → Matching
  | .ok true => .match_
  | .ok false => .noMatch
  | .error _ => .indeterminate

/-- C09 is violated, entry level: an entry with a False match and a failing match is No-match by
the table; the code makes the target Indeterminate. -/
theorem C09_entry_violated :
    let t : Target := { subjects := [{ matches_ := [Samples.roleMatch "guest", Samples.errMatch] }]
                        resources := [], actions := [], environments := [] }
    (((Samples.roleMatch "guest").evaluate Samples.env Samples.ctx Samples.w0).1 = .ok false) ∧
    ((Samples.errMatch.evaluate Samples.env Samples.ctx Samples.w0).1 = .error .missingAttributeError) ∧
    targetTable [[some false, none]] [] [] [] = .noMatch ∧
    codeVerdict (t.match_ Samples.env Samples.ctx Samples.w0).1 = .indeterminate :=
  ⟨rfl, rfl, by decide, rfl⟩

/-- C09 is violated, section level: one entry matches and another fails. -/
theorem C09_section_violated :
    let t : Target := { subjects := [{ matches_ := [Samples.roleMatch "staff"] },
                                     { matches_ := [Samples.errMatch] }]
                        resources := [], actions := [], environments := [] }
    (((Samples.roleMatch "staff").evaluate Samples.env Samples.ctx Samples.w0).1 = .ok true) ∧
    targetTable [[some true], [none]] [] [] [] = .match_ ∧
    codeVerdict (t.match_ Samples.env Samples.ctx Samples.w0).1 = .indeterminate :=
  ⟨rfl, by decide, rfl⟩

private theorem entryTable_some (bs : List Bool) :
    entryTable (bs.map some) = if ∀ b ∈ bs, b = true then .match_ else .noMatch := by
  unfold entryTable
  by_cases h : ∀ b ∈ bs, b = true
  · have : some false ∉ bs.map some := by
      simp only [List.mem_map, Option.some.injEq, exists_eq_right]
      intro hf; exact absurd (h _ hf) (by simp)
    have hn : none ∉ bs.map some := by simp
    rw [if_neg this, if_neg hn, if_pos h]
  · have : some false ∈ bs.map some := by
      simp only [List.mem_map, Option.some.injEq, exists_eq_right]
      simp only [Classical.not_forall] at h
      obtain ⟨b, hb, hb'⟩ := h
      simpa using (by simpa using hb' : b = false) ▸ hb
    rw [if_pos this, if_neg h]

private theorem sectionTable_some (es : List (List Bool)) [Decidable (SectionMatches es)] :
    sectionTable (es.map (·.map some)) = if SectionMatches es then .match_ else .noMatch := by
  have h1 : (es.map (·.map some)).map entryTable
      = es.map fun bs => if ∀ b ∈ bs, b = true then .match_ else .noMatch := by
    simp [entryTable_some]
  have h2 : Matching.indeterminate ∉ (es.map (·.map some)).map entryTable := by
    rw [h1]
    simp only [List.mem_map, not_exists, not_and]
    intro bs _
    split <;> simp
  have h3 : (es.map (·.map some) = [] ∨ Matching.match_ ∈ (es.map (·.map some)).map entryTable)
      ↔ SectionMatches es := by
    rw [h1, SectionMatches]
    simp only [List.map_eq_nil_iff, List.mem_map]
    apply or_congr Iff.rfl
    constructor
    · rintro ⟨bs, hb, hb'⟩
      refine ⟨bs, hb, ?_⟩
      by_cases h : ∀ b ∈ bs, b = true
      · exact h
      · rw [if_neg h] at hb'; cases hb'
    · rintro ⟨bs, hb, hb'⟩
      exact ⟨bs, hb, if_pos hb'⟩
  unfold sectionTable
  rw [if_neg h2]
  by_cases h : SectionMatches es
  · rw [if_pos h, if_pos (h3.2 h)]
  · rw [if_neg h, if_neg (fun h' => h (h3.1 h'))]

/-- C09, partial: when no match element fails the code gives the verdict of the tables.
(Missing: the table entries in which a failing match element is absorbed by a False sibling or
by another matching entry; there the code answers Indeterminate, see the witnesses above.) -/
theorem C09_partial (env : Env) (ctx : Ctx) (t : Target) (w w' : World)
    (s r a e : List (List Bool))
    (hs : Shape t.subjects s) (hr : Shape t.resources r) (ha : Shape t.actions a)
    (he : Shape t.environments e)
    (hrun : Runs ((allMatches t).map (Match.evaluate env · ctx)) w
      (s.flatten ++ r.flatten ++ a.flatten ++ e.flatten) w') :
    codeVerdict (t.match_ env ctx w).1 =
      targetTable (s.map (·.map some)) (r.map (·.map some)) (a.map (·.map some)) (e.map (·.map some)) := by
  classical
  obtain ⟨b, hb, hiff⟩ := C08_target_and_or_and env ctx t w w' s r a e hs hr ha he hrun
  rw [hb]
  simp only [targetTable, sectionTable_some]
  cases b with
  | true =>
    obtain ⟨h1, h2, h3, h4⟩ := hiff.1 rfl
    simp [codeVerdict, h1, h2, h3, h4]
  | false =>
    have hn : ¬ (SectionMatches s ∧ SectionMatches r ∧ SectionMatches a ∧ SectionMatches e) := by
      rw [← hiff]; simp
    by_cases h1 : SectionMatches s <;> by_cases h2 : SectionMatches r <;>
      by_cases h3 : SectionMatches a <;> by_cases h4 : SectionMatches e <;>
      simp_all [codeVerdict]

/-- C09, partial, the other direction: a target that is Indeterminate has a match element that
failed (the code never invents an error). -/
theorem C09_error_partial (env : Env) (ctx : Ctx) (t : Target) (w : World)
    (h : codeVerdict (t.match_ env ctx w).1 = .indeterminate) :
    ∃ m ∈ allMatches t, ∃ w1 e w2, m.evaluate env ctx w1 = (.error e, w2) := by
  rcases hm : t.match_ env ctx w with ⟨e | b, w'⟩
  · have hf := (C08_target_fails_iff env ctx t w w' e).1 hm
    have gen : ∀ {cs : List (EvalM Bool)} {w e w'}, Fails cs w e w' →
        ∃ c ∈ cs, ∃ w1 e w2, c w1 = (.error e, w2) := by
      intro cs w e w' h
      induction h with
      | head hc => exact ⟨_, by simp, _, _, _, hc⟩
      | tail _ _ ih =>
        obtain ⟨c, hc, h⟩ := ih
        exact ⟨c, by simp [hc], h⟩
    obtain ⟨c, hc, h⟩ := gen hf
    obtain ⟨m, hm, rfl⟩ := List.mem_map.1 hc
    exact ⟨m, hm, h⟩
  · rw [hm] at h; cases b <;> simp [codeVerdict] at h

/-! ## C10 -/

/-- What a match element compares its literal with: the bag of its designator, else of its
selector. -/
def Match.designated (env : Env) (ctx : Ctx) (m : Match) : Option (EvalM PyVal) :=
  match m.designator, m.selector with
  | some (cat, d), _ => some (designatorEval env cat d ctx)
  | none, some s => some (EvalM.ofExcept (selectorEval env s ctx))
  | none, none => none

private theorem matchLoop_runs {env m f vs w xs w'} (hf : m.func = some f) (hd : env.debug = false)
    (h : Runs (vs.map fun v => f.evaluate env [optAv m.value, .av v]) w xs w') :
    matchLoop env m vs w = (.ok xs, w') := by
  induction vs generalizing w xs with
  | nil => cases h; rfl
  | cons v vs ih =>
    cases h with
    | cons hc hr =>
      simp only [matchLoop, matchOne, hf, bind_assoc', run_bind_ok hc, hd, debugCheck]
      rw [run_bind_ok (by rfl : EvalM.ofExcept _ _ = (.ok (), _))]
      simp only [run_bind, run_pure, ih hr]

private theorem matchLoop_fails {env m f vs w e w'} (hf : m.func = some f) (hd : env.debug = false)
    (h : Fails (vs.map fun v => f.evaluate env [optAv m.value, .av v]) w e w') :
    matchLoop env m vs w = (.error e, w') := by
  induction vs generalizing w with
  | nil => cases h
  | cons v vs ih =>
    cases h with
    | head hc => simp only [matchLoop, matchOne, hf, bind_assoc', run_bind_error hc]
    | tail hc hr =>
      simp only [matchLoop, matchOne, hf, bind_assoc', run_bind_ok hc, hd, debugCheck]
      rw [run_bind_ok (by rfl : EvalM.ofExcept _ _ = (.ok (), _))]
      simp only [run_bind, run_pure, ih hr]

private theorem requestValues_eq {env ctx m} {q : EvalM PyVal} (h : Match.designated env ctx m = some q) :
    m.requestValues env ctx = q := by
  unfold Match.designated at h
  unfold Match.requestValues
  cases hd : m.designator with
  | some cd => simpa [hd] using h
  | none =>
    cases hs : m.selector with
    | some s => simpa [hd, hs] using h
    | none => simp [hd, hs] at h

/-- C10: the match is true iff the function, applied to the literal and to each value of the bag
in that argument order, answers true for some value. Every value is checked. -/
theorem C10_match_exists (env : Env) (ctx : Ctx) (m : Match) (lit : AttrVal) (f : Func)
    (q : EvalM PyVal) (b : Bag) (w w1 w2 : World) (xs : List PyVal)
    (hdebug : env.debug = false) (hlit : m.value = some lit) (hf : m.func = some f)
    (hq : Match.designated env ctx m = some q)
    (hbag : q w = (.ok (.bag b), w1))
    (hrun : Runs (b.items.map fun v => f.evaluate env [.av lit, .av v]) w1 xs w2) :
    ∃ r, m.evaluate env ctx w = (.ok r, w2) ∧ (r = true ↔ ∃ x ∈ xs, ¬ Spec.RegardedFalse x) := by
  simp only [← truthy_iff]
  refine ⟨xs.any PyVal.truthy, ?_, by simp⟩
  rw [← requestValues_eq hq] at hbag
  have := matchLoop_runs (m := m) hf hdebug (by rw [hlit]; exact hrun)
  simp only [Match.evaluate, run_bind_ok hbag, run_bind_ok this]; rfl

/-- C10: an error for any value, even after a value that matches, makes the match fail. -/
theorem C10_match_error (env : Env) (ctx : Ctx) (m : Match) (lit : AttrVal) (f : Func)
    (q : EvalM PyVal) (b : Bag) (w w1 w2 : World) (e : Exc)
    (hdebug : env.debug = false) (hlit : m.value = some lit) (hf : m.func = some f)
    (hq : Match.designated env ctx m = some q)
    (hbag : q w = (.ok (.bag b), w1))
    (hrun : Fails (b.items.map fun v => f.evaluate env [.av lit, .av v]) w1 e w2) :
    m.evaluate env ctx w = (.error e, w2) := by
  rw [← requestValues_eq hq] at hbag
  have := matchLoop_fails (m := m) hf hdebug (by rw [hlit]; exact hrun)
  simp only [Match.evaluate, run_bind_ok hbag, run_bind_error this]

/-- C10: an error of the designator or selector makes the match fail before any comparison; a
match element with neither fails with XacmlContextError. -/
theorem C10_no_bag (env : Env) (ctx : Ctx) (m : Match) (w : World) :
    (∀ q e w1, Match.designated env ctx m = some q → q w = (.error e, w1) →
      m.evaluate env ctx w = (.error e, w1)) ∧
    (Match.designated env ctx m = none → m.evaluate env ctx w = (.error .xacmlContextError, w)) := by
  constructor
  · intro q e w1 hq h
    rw [← requestValues_eq hq] at h
    simp only [Match.evaluate, run_bind_error h]
  · intro h
    unfold Match.designated at h
    split at h
    · cases h
    · cases h
    · rename_i hd hs
      simp [Match.evaluate, Match.requestValues, hd, hs, run_bind]

/-- The built-in match functions answer native booleans, for which "truthy" is "true". -/
theorem C10_boolean_functions (env : Env) (f : Func) (args : List PyVal) (w w' : World) (x : PyVal)
    (hf : (∃ t, f = .equal t) ∨ (∃ t, f = .matchFn t) ∨ (∃ t, f = .regexpMatch t))
    (h : f.evaluate env args w = (.ok x, w')) :
    ∃ b, x = .native (.bool b) ∧ (b = true ↔ ¬ Spec.RegardedFalse x) := by
  simp only [← truthy_iff]
  suffices ∃ b, x = .native (.bool b) by
    obtain ⟨b, rfl⟩ := this; exact ⟨b, rfl, Iff.rfl⟩
  rcases hf with ⟨t, rfl⟩ | ⟨t, rfl⟩ | ⟨t, rfl⟩
  · simp only [Func.evaluate, run_ofExcept, Prod.mk.injEq] at h
    obtain ⟨h, _⟩ := h
    unfold equalFn at h
    repeat' split at h
    all_goals first | cases h; done | (injection h with h; exact ⟨_, h.symm⟩)
  · simp only [Func.evaluate, run_ofExcept, Prod.mk.injEq] at h
    obtain ⟨h, _⟩ := h
    unfold matchFnEval at h
    repeat' split at h
    all_goals first | cases h; done | (injection h with h; exact ⟨_, h.symm⟩)
  · simp only [Func.evaluate] at h
    unfold regexpMatchFn at h
    split at h
    · split at h
      · rename_i p i
        by_cases h1 : p.isInst t
        · by_cases h2 : i.isInst t
          · simp only [h1, h2, if_true] at h
            cases hp : p.value with
            | none => simp [hp] at h
            | some n =>
              cases n with
              | str pat =>
                simp only [hp] at h
                rw [run_bind_eq_ok] at h
                obtain ⟨m, w1, _, h⟩ := h
                cases hi : i.value with
                | none => simp [hi] at h
                | some n =>
                  cases n with
                  | str s => simp [hi] at h; exact ⟨_, h.1.symm⟩
                  | _ => simp [hi] at h
              | _ => simp [hp] at h
          · simp [h1, h2] at h
        · simp [h1] at h
      · simp at h
    · simp at h

section NonVacuity
open Samples
example : (roleMatch "staff").value = some (str "staff") ∧
    (roleMatch "staff").func = some (.equal stringClass) := ⟨rfl, rfl⟩
example : ∃ q, Match.designated env ctx (roleMatch "staff") = some q ∧
    q w0 = (.ok (.bag ⟨some stringClass, [str "admin", str "staff"]⟩), w0) := ⟨_, rfl, rfl⟩
example : Runs ([str "admin", str "staff"].map fun v =>
    (Func.equal stringClass).evaluate env [.av (str "staff"), .av v]) w0
    [.native (.bool false), .native (.bool true)] w0 := .cons (by rfl) (.cons (by rfl) (.nil _))
end NonVacuity

/-! ## C11 -/

/-- The condition of a rule succeeds: there is none, or its value is one of `good`. -/
def CondGives (env : Env) (ctx : Ctx) (c : Option Condition) (good : PyVal → Prop) (w w' : World) : Prop :=
  match c with
  | none => w' = w ∧ good (.native (.bool true))
  | some c => ∃ x, c.evaluate env ctx w = (.ok x, w') ∧ good x

/-- What the code does, exactly: the rule yields its Effect iff its target matches and its
condition evaluates to something Python regards as true. -/
theorem C11_effect_iff_truthy (env : Env) (ctx : Ctx) (r : Rule) (e : Effect) (w w' : World)
    (he : r.effect = some e) :
    r.evaluate env ctx w = (.ok (Spec.effectDecision e), w') ↔
      ∃ w1, targetMatch env r.target ctx w = (.ok true, w1) ∧
        CondGives env ctx r.condition (fun x => ¬ Spec.RegardedFalse x) w1 w' := by
  simp only [← truthy_iff]
  have hd : Spec.effectDecision e = e.toDecision := by cases e <;> rfl
  rw [hd]
  unfold Rule.evaluate catchAll Rule.body CondGives
  have ne : ∀ e : Effect, Decision.notApplicable ≠ e.toDecision := by intro e; cases e <;> simp [Effect.toDecision]
  have ni : ∀ e : Effect, Decision.indeterminate ≠ e.toDecision := by intro e; cases e <;> simp [Effect.toDecision]
  rcases ht : targetMatch env r.target ctx w with ⟨ex | tm, w1⟩
  · simp [run_bind_error ht, ni]
  · cases tm with
    | false => simp [run_bind_ok ht, ne]
    | true =>
      cases hc : r.condition with
      | none => simp [run_bind, ht, he, PyVal.truthy, Native.truthy, eq_comm (a := w1)]
      | some c =>
        rcases hx : c.evaluate env ctx w1 with ⟨ex | x, w2⟩
        · simp [run_bind, ht, hx, ni]
        · cases hxt : x.truthy
          · simp [run_bind, ht, hx, hxt, ne]
          · simp only [run_bind_ok ht, Bool.not_true, Bool.false_eq_true, if_false, run_bind_ok hx, hxt,
              if_true, he, run_pure, Prod.mk.injEq, Except.ok.injEq, true_and]
            constructor
            · rintro rfl; exact ⟨w1, rfl, x, hx, hxt⟩
            · rintro ⟨w1', rfl, x', h, hx'⟩
              rw [hx] at h
              simp only [Prod.mk.injEq] at h
              exact h.2

/-- C11 is violated: a condition whose value is the boolean attribute value `false` makes the
rule fire (boolean-one-and-only of a request attribute holding false). -/
theorem C11_violated :
    ∃ (env : Env) (ctx : Ctx) (w : World) (e : Expr) (v : AttrVal) (r : Rule),
      r.condition = some ⟨some e⟩ ∧ r.target = none ∧ r.effect = some .permit ∧
      e.evaluate env ctx w = (.ok (.av v), w) ∧ v.cls = booleanClass ∧ v.value = some (.bool false) ∧
      r.evaluate env ctx w = (.ok .permit, w) := by
  let v : AttrVal := { cls := booleanClass, dataType := xsd "boolean", value := some (.bool false) }
  let d : Designator := { attributeId := some "ok", dataType := some (xsd "boolean"), issuer := none, mustBePresent := false }
  let e : Expr := .apply (some (.oneAndOnly booleanClass)) [.designator .action d]
  let req : Request :=
    { data := { subjects := [], resources := [], environment := none
                action := some [{ attributeId := some "ok", dataType := some (xsd "boolean"), issuer := none, values := [v] }] }
      ctxHandler := none, attributeSelector := none }
  exact ⟨Samples.env, some req, Samples.w0, e, v,
    { effect := some .permit, target := none, condition := some ⟨some e⟩ },
    rfl, rfl, rfl, rfl, rfl, rfl, rfl⟩

/-- C11, partial: provided the condition's value is a native boolean, the rule yields its Effect
iff the target matches and the condition is true, NotApplicable iff the target does not match or
the condition is false, Indeterminate iff either fails.
(Missing: conditions whose value is not a native boolean, see `C11_violated`.) -/
theorem C11_partial (env : Env) (ctx : Ctx) (r : Rule) (e : Effect) (w : World)
    (he : r.effect = some e)
    (hbool : ∀ w1, targetMatch env r.target ctx w = (.ok true, w1) → ∀ c, r.condition = some c →
      ∀ x w2, c.evaluate env ctx w1 = (.ok x, w2) → ∃ b, x = .native (.bool b)) :
    ((r.evaluate env ctx w).1 = .ok (Spec.effectDecision e) ↔
      ∃ w1 w2, targetMatch env r.target ctx w = (.ok true, w1) ∧
        CondGives env ctx r.condition (· = .native (.bool true)) w1 w2) ∧
    ((r.evaluate env ctx w).1 = .ok .notApplicable ↔
      (∃ w1, targetMatch env r.target ctx w = (.ok false, w1)) ∨
      ∃ w1 w2 c, targetMatch env r.target ctx w = (.ok true, w1) ∧ r.condition = some c ∧
        c.evaluate env ctx w1 = (.ok (.native (.bool false)), w2)) ∧
    ((r.evaluate env ctx w).1 = .ok .indeterminate ↔
      (∃ ex w1, targetMatch env r.target ctx w = (.error ex, w1)) ∨
      ∃ w1 w2 c ex, targetMatch env r.target ctx w = (.ok true, w1) ∧ r.condition = some c ∧
        c.evaluate env ctx w1 = (.error ex, w2)) := by
  have hd : Spec.effectDecision e = e.toDecision := by cases e <;> rfl
  rw [hd]
  unfold Rule.evaluate catchAll Rule.body CondGives
  have ne : ∀ e : Effect, Decision.notApplicable ≠ e.toDecision := by intro e; cases e <;> simp [Effect.toDecision]
  have ni : ∀ e : Effect, Decision.indeterminate ≠ e.toDecision := by intro e; cases e <;> simp [Effect.toDecision]
  have ne' : ∀ e : Effect, e.toDecision ≠ .notApplicable := fun e h => ne e h.symm
  have ni' : ∀ e : Effect, e.toDecision ≠ .indeterminate := fun e h => ni e h.symm
  rcases ht : targetMatch env r.target ctx w with ⟨ex | tm, w1⟩
  · simp [run_bind_error ht, ni]
  · cases tm with
    | false => simp [run_bind_ok ht, ne]
    | true =>
      cases hc : r.condition with
      | none => simp [run_bind, ht, he, PyVal.truthy, Native.truthy, ne', ni']
      | some c =>
        rcases hx : c.evaluate env ctx w1 with ⟨ex | x, w2⟩
        · simp [run_bind, ht, hx, ni]
        · obtain ⟨b, rfl⟩ := hbool w1 ht c hc x w2 hx
          cases b <;> simp [run_bind, ht, hx, he, PyVal.truthy, Native.truthy, ne, ne', ni']

section NonVacuity
open Samples
/-- A rule with a boolean condition: string-equal(one-and-only(action-id), "read"). -/
def condRule : Rule :=
  { effect := some .permit, target := some (roleTarget "staff")
    condition := some ⟨some (.apply (some (.equal stringClass))
      [.apply (some (.oneAndOnly stringClass)) [.designator .action actDes], .value (str "read")])⟩ }
example : ∃ w1 w2 c, targetMatch env condRule.target ctx w0 = (.ok true, w1) ∧ condRule.condition = some c ∧
    c.evaluate env ctx w1 = (.ok (.native (.bool true)), w2) := ⟨w0, w0, _, rfl, rfl, rfl⟩
example : (condRule.evaluate env ctx w0).1 = .ok .permit := rfl
end NonVacuity

end Xacml
