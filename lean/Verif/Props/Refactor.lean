import Verif.Props.Semantics
import Verif.Lemmas.Transport
import Verif.Props.Reordering
import Verif.Spec.Refactor

/-!
# C101, C102, C87: targets can be moved up and down, alternatives written as several rules, rules as several policies
-/
namespace Xacml
open Spec

section
variable {env : Env} {r : Request}

/-- A section of a target is true or false. -/
private def SectionIs (env : Env) (r : Request) (cs : List TargetChild) (b : Bool) : Prop :=
  ∃ es, SectionMeans env r cs es ∧ (b = true ↔ SectionMatches es)

private theorem section_empty (b : Bool) : SectionIs env r [] b ↔ b = true := by
  constructor
  · rintro ⟨es, h1, h2⟩
    exact h2.2 (.inl h1)
  · rintro rfl
    exact ⟨[], rfl, by simp [SectionMatches]⟩

private theorem applies_sections (t : Target) (b : Bool) : Applies env r (some t) b ↔ ∃ b1 b2 b3 b4,
    SectionIs env r t.subjects b1 ∧ SectionIs env r t.resources b2 ∧ SectionIs env r t.actions b3 ∧
      SectionIs env r t.environments b4 ∧ b = (b1 && b2 && b3 && b4) := by
  have hb : ∀ P : Prop, ∃ b : Bool, b = true ↔ P := fun P => by
    rcases Classical.em P with h | h
    · exact ⟨true, by simp [h]⟩
    · exact ⟨false, by simp [h]⟩
  constructor
  · rintro ⟨ss, rs, as, es, h1, h2, h3, h4, h⟩
    obtain ⟨b1, e1⟩ := hb (SectionMatches ss)
    obtain ⟨b2, e2⟩ := hb (SectionMatches rs)
    obtain ⟨b3, e3⟩ := hb (SectionMatches as)
    obtain ⟨b4, e4⟩ := hb (SectionMatches es)
    refine ⟨b1, b2, b3, b4, ⟨ss, h1, e1⟩, ⟨rs, h2, e2⟩, ⟨as, h3, e3⟩, ⟨es, h4, e4⟩, ?_⟩
    rw [← e1, ← e2, ← e3, ← e4] at h
    clear e1 e2 e3 e4 h1 h2 h3 h4 hb
    cases b <;> cases b1 <;> cases b2 <;> cases b3 <;> cases b4 <;> simp_all
  · rintro ⟨b1, b2, b3, b4, ⟨ss, h1, e1⟩, ⟨rs, h2, e2⟩, ⟨as, h3, e3⟩, ⟨es, h4, e4⟩, rfl⟩
    refine ⟨ss, rs, as, es, h1, h2, h3, h4, ?_⟩
    rw [← e1, ← e2, ← e3, ← e4]
    cases b1 <;> cases b2 <;> cases b3 <;> cases b4 <;> simp

private theorem section_join {cs ds : List TargetChild} (h : cs = [] ∨ ds = []) (b : Bool) :
    SectionIs env r (cs ++ ds) b ↔ ∃ b1 b2, SectionIs env r cs b1 ∧ SectionIs env r ds b2 ∧ b = (b1 && b2) := by
  rcases h with rfl | rfl
  · simp only [List.nil_append, section_empty]
    constructor
    · exact fun h => ⟨true, b, rfl, h, rfl⟩
    · rintro ⟨_, b2, rfl, h, rfl⟩; simpa using h
  · simp only [List.append_nil, section_empty]
    constructor
    · exact fun h => ⟨b, true, h, rfl, by simp⟩
    · rintro ⟨b1, _, h, rfl, rfl⟩; simpa using h

/-- A joined target is the conjunction of both, and fails if one of them does. -/
private theorem applies_joined {t : Target} {u : Option Target} (hs : ∀ v, u = some v → Separate t v) (b : Bool) :
    Applies env r (some (joined t u)) b ↔
      ∃ b1 b2, Applies env r (some t) b1 ∧ Applies env r u b2 ∧ b = (b1 && b2) := by
  cases u with
  | none =>
    constructor
    · exact fun h => ⟨b, true, h, rfl, by simp⟩
    · rintro ⟨b1, b2, h, (rfl : b2 = true), rfl⟩; simpa [joined] using h
  | some u =>
    obtain ⟨s1, s2, s3, s4⟩ := hs u rfl
    simp only [joined, applies_sections, section_join s1, section_join s2, section_join s3, section_join s4]
    constructor
    · rintro ⟨_, _, _, _, ⟨a1, c1, h1, k1, rfl⟩, ⟨a2, c2, h2, k2, rfl⟩, ⟨a3, c3, h3, k3, rfl⟩, ⟨a4, c4, h4, k4, rfl⟩, rfl⟩
      refine ⟨_, _, ⟨a1, a2, a3, a4, h1, h2, h3, h4, rfl⟩, ⟨c1, c2, c3, c4, k1, k2, k3, k4, rfl⟩, ?_⟩
      cases a1 <;> cases a2 <;> cases a3 <;> cases a4 <;> cases c1 <;> cases c2 <;> cases c3 <;> cases c4 <;> rfl
    · rintro ⟨_, _, ⟨a1, a2, a3, a4, h1, h2, h3, h4, rfl⟩, ⟨c1, c2, c3, c4, k1, k2, k3, k4, rfl⟩, rfl⟩
      refine ⟨_, _, _, _, ⟨a1, c1, h1, k1, rfl⟩, ⟨a2, c2, h2, k2, rfl⟩, ⟨a3, c3, h3, k3, rfl⟩, ⟨a4, c4, h4, k4, rfl⟩, ?_⟩
      cases a1 <;> cases a2 <;> cases a3 <;> cases a4 <;> cases c1 <;> cases c2 <;> cases c3 <;> cases c4 <;> rfl

private theorem joined_true {t : Target} {u : Option Target} (hs : ∀ v, u = some v → Separate t v)
    (hp : StatelessPip (some r)) (ht : Applies env r (some t) true) (b : Bool) :
    Applies env r (some (joined t u)) b ↔ Applies env r u b := by
  rw [applies_joined hs]
  constructor
  · rintro ⟨b1, b2, h1, h2, rfl⟩
    rw [applies_unique hp h1 ht]
    simpa using h2
  · exact fun h => ⟨true, b, ht, h, rfl⟩

private theorem joined_false {t : Target} {u : Option Target} (hs : ∀ v, u = some v → Separate t v)
    (hp : StatelessPip (some r)) (ht : Applies env r (some t) false) (b : Bool) :
    Applies env r (some (joined t u)) b ↔ b = false ∧ ∃ c, Applies env r u c := by
  rw [applies_joined hs]
  constructor
  · rintro ⟨b1, b2, h1, h2, rfl⟩
    rw [applies_unique hp h1 ht]
    exact ⟨rfl, _, h2⟩
  · rintro ⟨rfl, c, h⟩
    exact ⟨false, c, ht, h, rfl⟩

private theorem joined_fails {t : Target} {u : Option Target} (hs : ∀ v, u = some v → Separate t v)
    (ht : ∀ b, ¬ Applies env r (some t) b) (b : Bool) : ¬ Applies env r (some (joined t u)) b := by
  rw [applies_joined hs]
  rintro ⟨b1, _, h, _⟩
  exact ht b1 h

private theorem target_cases (env : Env) (r : Request) (t : Option Target) :
    Applies env r t true ∨ Applies env r t false ∨ ∀ b, ¬ Applies env r t b := by
  rcases Classical.em (Applies env r t true) with h | h
  · exact .inl h
  rcases Classical.em (Applies env r t false) with h' | h'
  · exact .inr (.inl h')
  · exact .inr (.inr fun b => by cases b <;> assumption)

private theorem decides {p : PolicyNode} (hp : StatelessPip (some r)) (hc : Complete p) {w : World}
    (hw : History env.re w) {d : Decision} (h : PolicyMeans env r p d) : Answers env p r w d := by
  obtain ⟨d', h1, h2⟩ := C64_pdp env r hp p hc hw
  rw [(h1 d).1 h]
  exact h2

/-! ## Rules -/

private theorem rule_total (hp : StatelessPip (some r)) (rule : Rule) (he : rule.effect ≠ none) :
    ∃ d, RuleMeans env r rule d := by
  obtain ⟨d, w, h⟩ := rule_evaluate_ok env rule (some r) start
  have hw : History env.re start := .start
  exact ⟨d, (C64_rule env r hp rule he hw d).1 (by rw [h])⟩

private theorem rule_true {t : Target} {rule : Rule} (hs : ∀ v, rule.target = some v → Separate t v)
    (hp : StatelessPip (some r)) (ht : Applies env r (some t) true) {d : Decision} (h : RuleMeans env r rule d) :
    RuleMeans env r (ruleWithin t rule) d := by
  have ha := joined_true hs hp ht
  cases h with
  | targetFalse h => exact .targetFalse ((ha _).2 h)
  | conditionFalse h h' => exact .conditionFalse ((ha _).2 h) h'
  | effect h h' he => exact .effect ((ha _).2 h) h' he
  | targetFails h => exact .targetFails fun b hb => h b ((ha b).1 hb)
  | conditionFails h h' => exact .conditionFails ((ha _).2 h) h'

private theorem rules_true {t : Target} {rules : List Rule} (hs : ∀ rule ∈ rules, ∀ v, rule.target = some v → Separate t v)
    (hp : StatelessPip (some r)) (ht : Applies env r (some t) true) {ds : List Decision}
    (h : Each (RuleMeans env r) rules ds) : Each (RuleMeans env r) (rules.map (ruleWithin t)) ds := by
  induction rules generalizing ds with
  | nil => exact h
  | cons x xs ih =>
    obtain ⟨d, ds, rfl, h1, h2⟩ := h
    exact ⟨d, ds, rfl, rule_true (hs x (by simp)) hp ht h1, ih (fun y hy => hs y (by simp [hy])) h2⟩

/-- Decisions none of which is Permit or Deny. -/
private theorem combineRules_idle (alg : Alg) (es : List (Option Effect)) (ds : List Decision)
    (h : ∀ d ∈ ds, d = .notApplicable ∨ d = .indeterminate) :
    Spec.combineRules alg es ds = .notApplicable ∨ Spec.combineRules alg es ds = .indeterminate := by
  have h1 : Decision.permit ∉ ds := fun hm => by rcases h _ hm with h | h <;> cases h
  have h2 : Decision.deny ∉ ds := fun hm => by rcases h _ hm with h | h <;> cases h
  cases alg with
  | denyOverrides =>
    simp only [Spec.combineRules, ruleDenyOverrides, h1, h2, if_false]
    split
    · exact .inr rfl
    · split
      · exact .inr rfl
      · exact .inl rfl
  | permitOverrides =>
    simp only [Spec.combineRules, rulePermitOverrides, h1, h2, if_false]
    split
    · exact .inr rfl
    · split
      · exact .inr rfl
      · exact .inl rfl
  | firstApplicable =>
    simp only [Spec.combineRules, Spec.firstApplicable]
    cases hf : ds.find? (· ≠ .notApplicable) with
    | none => exact .inl rfl
    | some d => exact h d (List.mem_of_find?_eq_some hf)

private theorem zip_mem_right {α β} {as : List α} {bs : List β} {a : α} {b : β} (h : (a, b) ∈ as.zip bs) : b ∈ bs :=
  (List.of_mem_zip h).2

private theorem combineRules_quiet (alg : Alg) (es : List (Option Effect)) (ds : List Decision)
    (h : ∀ d ∈ ds, d = .notApplicable) : Spec.combineRules alg es ds = .notApplicable := by
  have h1 : ∀ x, x ≠ Decision.notApplicable → x ∉ ds := fun x hx hm => hx (h _ hm)
  have h2 : ∀ e, (e, Decision.indeterminate) ∉ es.zip ds := fun e hm => h1 _ (by simp) (zip_mem_right hm)
  cases alg with
  | denyOverrides => simp [Spec.combineRules, ruleDenyOverrides, h1, h2]
  | permitOverrides => simp [Spec.combineRules, rulePermitOverrides, h1, h2]
  | firstApplicable =>
    simp only [Spec.combineRules, Spec.firstApplicable]
    rw [List.find?_eq_none.2 fun d hd => by simp [h d hd]]
    rfl

private theorem combineRules_failing (alg : Alg) (es : List (Option Effect)) (ds : List Decision) (hne : ds ≠ [])
    (h : ∀ d ∈ ds, d = .indeterminate) : Spec.combineRules alg es ds = .indeterminate := by
  cases ds with
  | nil => exact absurd rfl hne
  | cons d ds =>
    have hd := h d (by simp)
    subst hd
    have h1 : ∀ x, x ≠ Decision.indeterminate → x ∉ ds := fun x hx hm => hx (h _ (by simp [hm]))
    cases alg with
    | denyOverrides => simp [Spec.combineRules, ruleDenyOverrides, h1]
    | permitOverrides => simp [Spec.combineRules, rulePermitOverrides, h1]
    | firstApplicable => simp [Spec.combineRules, Spec.firstApplicable]

private theorem moved_rules {hdr : Header} {t : Target} (ht : hdr.target = some t) {rules : List Rule} (hne : rules ≠ [])
    (hc : Complete (.policy hdr rules)) (hs : ∀ rule ∈ rules, ∀ v, rule.target = some v → Separate t v)
    (hp : StatelessPip (some r)) :
    ∃ d d', PolicyMeans env r (.policy hdr rules) d ∧
      PolicyMeans env r (.policy { hdr with target := none } (rules.map (ruleWithin t))) d' ∧
      (d' = d ∨ ((∃ rule ∈ rules, ∀ b, ¬ Applies env r rule.target b) ∧ d = .notApplicable ∧ d' = .indeterminate)) := by
  obtain ⟨alg, ha⟩ := Option.ne_none_iff_exists'.1 hc.1
  have hn : Applies env r ({ hdr with target := none } : Header).target true := rfl
  have he : (rules.map (ruleWithin t)).map (·.effect) = rules.map (·.effect) := by
    simp [ruleWithin, Function.comp_def]
  rcases target_cases env r (some t) with h | h | h
  · obtain ⟨ds, hds⟩ := each_total fun rule hm => rule_total (env := env) hp rule (hc.2 rule hm)
    have h1 := PolicyMeans.rules (hdr := hdr) (ht ▸ h) ha hds
    have h2 := PolicyMeans.rules (hdr := { hdr with target := none }) hn ha (rules_true hs hp h hds)
    rw [he] at h2
    exact ⟨_, _, h1, h2, .inl rfl⟩
  · have h1 := PolicyMeans.policyTargetFalse (rules := rules) (hdr := hdr) (ht ▸ h)
    have hd : ∀ rule ∈ rules, ∃ d, RuleMeans env r (ruleWithin t rule) d ∧ (d = .notApplicable ∨
        (d = .indeterminate ∧ ∀ b, ¬ Applies env r rule.target b)) := by
      intro rule hm
      have hj := joined_false (hs rule hm) hp h
      rcases target_cases env r rule.target with hu | hu | hu
      · exact ⟨_, .targetFalse ((hj _).2 ⟨rfl, _, hu⟩), .inl rfl⟩
      · exact ⟨_, .targetFalse ((hj _).2 ⟨rfl, _, hu⟩), .inl rfl⟩
      · exact ⟨_, .targetFails fun b hb => by obtain ⟨_, c, hc⟩ := (hj b).1 hb; exact hu c hc, .inr ⟨rfl, hu⟩⟩
    obtain ⟨ds, hds⟩ := each_total hd
    have hmean : Each (RuleMeans env r) (rules.map (ruleWithin t)) ds := by
      rw [each_map]; exact each_imp (fun _ _ h => h.1) hds
    have h2 := PolicyMeans.rules (hdr := { hdr with target := none }) hn ha hmean
    rw [he] at h2
    by_cases hq : ∀ d ∈ ds, d = Decision.notApplicable
    · rw [combineRules_quiet alg _ ds hq] at h2
      exact ⟨_, _, h1, h2, .inl rfl⟩
    · have hds' : ∀ d ∈ ds, ∃ rule ∈ rules, d = .notApplicable ∨
          (d = .indeterminate ∧ ∀ b, ¬ Applies env r rule.target b) := by
        clear hmean h2 hq h1 hd hc hne he hs
        induction rules generalizing ds with
        | nil => rw [each_nil] at hds; subst hds; simp
        | cons x xs ih =>
          obtain ⟨d, ds', rfl, k1, k2⟩ := hds
          intro d' hd'
          rcases List.mem_cons.1 hd' with rfl | hd'
          · exact ⟨x, by simp, k1.2⟩
          · obtain ⟨y, hy, k⟩ := ih ds' k2 d' hd'
            exact ⟨y, by simp [hy], k⟩
      have hfail : ∃ rule ∈ rules, ∀ b, ¬ Applies env r rule.target b := by
        simp only [Classical.not_forall] at hq
        obtain ⟨d, hm, hne⟩ := hq
        obtain ⟨rule, hr, k | ⟨_, k⟩⟩ := hds' d hm
        · exact absurd k hne
        · exact ⟨rule, hr, k⟩
      rcases combineRules_idle alg (rules.map (·.effect)) ds fun d hm => by
          obtain ⟨_, _, k | ⟨k, _⟩⟩ := hds' d hm
          · exact .inl k
          · exact .inr k with k | k
      · rw [k] at h2; exact ⟨_, _, h1, h2, .inl rfl⟩
      · rw [k] at h2; exact ⟨_, _, h1, h2, .inr ⟨hfail, rfl, rfl⟩⟩
  · have h1 := PolicyMeans.policyTargetFails (rules := rules) (hdr := hdr) (ht ▸ h)
    have hmean : Each (RuleMeans env r) (rules.map (ruleWithin t)) (rules.map fun _ => .indeterminate) := by
      rw [each_map]
      exact each_map_right _ fun rule hm => .targetFails fun b => joined_fails (hs rule hm) h b
    have h2 := PolicyMeans.rules (hdr := { hdr with target := none }) hn ha hmean
    rw [he, combineRules_failing alg _ _ (by simpa using hne) (by simp)] at h2
    exact ⟨_, _, h1, h2, .inl rfl⟩

private theorem complete_moved {hdr : Header} {t : Target} {rules : List Rule} (hc : Complete (.policy hdr rules)) :
    Complete (.policy { hdr with target := none } (rules.map (ruleWithin t))) := by
  refine ⟨hc.1, fun x hx => ?_⟩
  obtain ⟨y, hy, rfl⟩ := List.mem_map.1 hx
  exact hc.2 y hy

/-- C101: the target of a policy can be written into each of its rules, and a target common to all rules can be written
into the policy, if the rules' own targets do not fail: the response is the same, after any histories. The targets must
not restrict the same section (two restrictions of one section would be alternatives), and there must be a rule. -/
theorem C101_rules (env : Env) (r : Request) (hp : StatelessPip (some r)) (hdr : Header) (t : Target)
    (ht : hdr.target = some t) (rules : List Rule) (hne : rules ≠ []) (hc : Complete (.policy hdr rules))
    (hs : ∀ rule ∈ rules, ∀ u, rule.target = some u → Separate t u)
    (hok : ∀ rule ∈ rules, ∃ b, Applies env r rule.target b) {w w' : World} (hw : History env.re w)
    (hw' : History env.re w') :
    (pdpEvaluate env (some (.policy hdr rules)) (some r) w).1 =
      (pdpEvaluate env (some (.policy { hdr with target := none } (rules.map (ruleWithin t)))) (some r) w').1 := by
  obtain ⟨d, d', h1, h2, h3⟩ := moved_rules ht hne hc hs hp
  rcases h3 with rfl | ⟨⟨rule, hm, hf⟩, _⟩
  · exact (decides hp hc hw h1).trans (decides hp (complete_moved hc) hw' h2).symm
  · obtain ⟨b, hb⟩ := hok rule hm
    exact absurd hb (hf b)

/-- C101: whatever fails, writing the target of a policy into its rules at most turns NotApplicable into
Indeterminate. -/
theorem C101_rules_never_grants (env : Env) (r : Request) (hp : StatelessPip (some r)) (hdr : Header) (t : Target)
    (ht : hdr.target = some t) (rules : List Rule) (hne : rules ≠ []) (hc : Complete (.policy hdr rules))
    (hs : ∀ rule ∈ rules, ∀ u, rule.target = some u → Separate t u) {w w' : World} (hw : History env.re w)
    (hw' : History env.re w') : ∃ d d', Answers env (.policy hdr rules) r w d ∧
      Answers env (.policy { hdr with target := none } (rules.map (ruleWithin t))) r w' d' ∧
      (d' = d ∨ (d = .notApplicable ∧ d' = .indeterminate)) := by
  obtain ⟨d, d', h1, h2, h3⟩ := moved_rules (env := env) ht hne hc hs hp
  exact ⟨d, d', decides hp hc hw h1, decides hp (complete_moved hc) hw' h2, h3.imp_right fun h => h.2⟩

/-! ## Policies in policy sets -/

private theorem policiesMean_each' {ps : List PolicyNode} {ds : List Decision} :
    PoliciesMean env r ps ds ↔ Each (PolicyMeans env r) ps ds := by
  induction ps generalizing ds with
  | nil =>
    constructor
    · rintro ⟨⟩; rfl
    · intro h; rw [each_nil] at h; subst h; exact .nil
  | cons p ps ih =>
    constructor
    · rintro (_ | ⟨h1, h2⟩); exact ⟨_, _, rfl, h1, ih.1 h2⟩
    · rintro ⟨d, ds', rfl, h1, h2⟩; exact .cons h1 (ih.2 h2)

private theorem policy_total (hp : StatelessPip (some r)) (p : PolicyNode) (hc : Complete p) :
    ∃ d, PolicyMeans env r p d := by
  have hw : History env.re start := .start
  obtain ⟨d, h, _⟩ := C64_pdp env r hp p hc hw
  exact ⟨d, (h d).2 rfl⟩

private theorem policy_true {t : Target} {p : PolicyNode} (hs : ∀ v, targetOf p = some v → Separate t v)
    (hp : StatelessPip (some r)) (ht : Applies env r (some t) true) {d : Decision} (h : PolicyMeans env r p d) :
    PolicyMeans env r (policyWithin t p) d := by
  cases p with
  | policy hdr rules =>
    have ha := joined_true hs hp ht
    cases h with
    | rules h h2 h3 => exact .rules ((ha _).2 h) h2 h3
    | policyTargetFalse h => exact .policyTargetFalse ((ha _).2 h)
    | policyTargetFails h => exact .policyTargetFails fun b hb => h b ((ha b).1 hb)
  | policySet hdr ps =>
    have ha := joined_true hs hp ht
    cases h with
    | policies h h2 h3 => exact .policies ((ha _).2 h) h2 h3
    | setTargetFalse h => exact .setTargetFalse ((ha _).2 h)
    | setTargetFails h => exact .setTargetFails fun b hb => h b ((ha b).1 hb)

private theorem policy_false {t : Target} {p : PolicyNode} (hs : ∀ v, targetOf p = some v → Separate t v)
    (hp : StatelessPip (some r)) (ht : Applies env r (some t) false) :
    ∃ d, PolicyMeans env r (policyWithin t p) d ∧ (d = .notApplicable ∨
      (d = .indeterminate ∧ ∀ b, ¬ Applies env r (targetOf p) b)) := by
  have hj := joined_false hs hp ht
  rcases Classical.em (∃ b, Applies env r (targetOf p) b) with ⟨b, hb⟩ | hno
  · have := (hj false).2 ⟨rfl, b, hb⟩
    cases p with
    | policy hdr rules => exact ⟨_, .policyTargetFalse this, .inl rfl⟩
    | policySet hdr ps => exact ⟨_, .setTargetFalse this, .inl rfl⟩
  · have hu : ∀ b, ¬ Applies env r (targetOf p) b := fun b hb => hno ⟨b, hb⟩
    have : ∀ b, ¬ Applies env r (some (joined t (targetOf p))) b := fun b hb => hno ((hj b).1 hb).2
    cases p with
    | policy hdr rules => exact ⟨_, .policyTargetFails this, .inr ⟨rfl, hu⟩⟩
    | policySet hdr ps => exact ⟨_, .setTargetFails this, .inr ⟨rfl, hu⟩⟩

private theorem policy_fails {t : Target} {p : PolicyNode} (hs : ∀ v, targetOf p = some v → Separate t v)
    (ht : ∀ b, ¬ Applies env r (some t) b) : PolicyMeans env r (policyWithin t p) .indeterminate := by
  have := joined_fails hs ht
  cases p with
  | policy hdr rules => exact .policyTargetFails this
  | policySet hdr ps => exact .setTargetFails this

private theorem combinePolicies_quiet (alg : Alg) (ds : List Decision)
    (h : ∀ d ∈ ds, d = .notApplicable) : Spec.combinePolicies alg ds = .notApplicable := by
  have h1 : ∀ x, x ≠ Decision.notApplicable → x ∉ ds := fun x hx hm => hx (h _ hm)
  cases alg with
  | denyOverrides => simp [Spec.combinePolicies, policyDenyOverrides, h1]
  | permitOverrides => simp [Spec.combinePolicies, policyPermitOverrides, h1]
  | firstApplicable =>
    simp only [Spec.combinePolicies, Spec.firstApplicable]
    rw [List.find?_eq_none.2 fun d hd => by simp [h d hd]]
    rfl

private theorem combinePolicies_idle (alg : Alg) (ds : List Decision)
    (h : ∀ d ∈ ds, d = .notApplicable ∨ d = .indeterminate) (hi : ¬ ∀ d ∈ ds, d = .notApplicable) :
    Spec.combinePolicies alg ds = if alg = .denyOverrides then .deny else .indeterminate := by
  have h1 : Decision.permit ∉ ds := fun hm => by rcases h _ hm with h | h <;> cases h
  have h2 : Decision.deny ∉ ds := fun hm => by rcases h _ hm with h | h <;> cases h
  have h3 : Decision.indeterminate ∈ ds := by
    simp only [Classical.not_forall] at hi
    obtain ⟨d, hm, hne⟩ := hi
    rcases h d hm with k | k
    · exact absurd k hne
    · exact k ▸ hm
  cases alg with
  | denyOverrides => simp [Spec.combinePolicies, policyDenyOverrides, h3]
  | permitOverrides => simp [Spec.combinePolicies, policyPermitOverrides, h1, h2, h3]
  | firstApplicable =>
    simp only [Spec.combinePolicies, Spec.firstApplicable]
    cases hf : ds.find? (· ≠ .notApplicable) with
    | none => exact absurd (List.find?_eq_none.1 hf _ h3) (by simp)
    | some d =>
      have hd := List.find?_some hf
      rcases h d (List.mem_of_find?_eq_some hf) with k | k
      · subst k; simp at hd
      · subst k; rfl

private theorem moved_policies {hdr : Header} {t : Target} (ht : hdr.target = some t) {alg : Alg} (ha : hdr.alg = some alg)
    {ps : List PolicyNode} (hne : ps ≠ [])
    (hc : ∀ p ∈ ps, Complete p) (hs : ∀ p ∈ ps, ∀ v, targetOf p = some v → Separate t v)
    (hp : StatelessPip (some r)) :
    ∃ d d', PolicyMeans env r (.policySet hdr ps) d ∧
      PolicyMeans env r (.policySet { hdr with target := none } (ps.map (policyWithin t))) d' ∧
      (d' = d ∨ ((∃ p ∈ ps, ∀ b, ¬ Applies env r (targetOf p) b) ∧ d = .notApplicable ∧
          d' = if alg = .denyOverrides then .deny else .indeterminate) ∨
        ((∀ b, ¬ Applies env r (some t) b) ∧ alg = .denyOverrides ∧ d = .indeterminate ∧ d' = .deny)) := by
  have hn : Applies env r ({ hdr with target := none } : Header).target true := rfl
  rcases target_cases env r (some t) with h | h | h
  · obtain ⟨ds, hds⟩ := each_total fun p hm => policy_total (env := env) hp p (hc p hm)
    have h1 := PolicyMeans.policies (hdr := hdr) (ht ▸ h) ha (policiesMean_each'.2 hds)
    have hm : Each (PolicyMeans env r) (ps.map (policyWithin t)) ds := by
      clear h1 hc hne
      induction ps generalizing ds with
      | nil => exact hds
      | cons x xs ih =>
        obtain ⟨d, ds, rfl, k1, k2⟩ := hds
        exact ⟨d, ds, rfl, policy_true (hs x (by simp)) hp h k1, ih (fun y hy => hs y (by simp [hy])) ds k2⟩
    exact ⟨_, _, h1, .policies (hdr := { hdr with target := none }) hn ha (policiesMean_each'.2 hm), .inl rfl⟩
  · have h1 := PolicyMeans.setTargetFalse (ps := ps) (hdr := hdr) (ht ▸ h)
    obtain ⟨ds, hds⟩ := each_total fun p hm => policy_false (env := env) (hs p hm) hp h
    have hmean : Each (PolicyMeans env r) (ps.map (policyWithin t)) ds := by
      rw [each_map]; exact each_imp (fun _ _ h => h.1) hds
    have h2 := PolicyMeans.policies (hdr := { hdr with target := none }) hn ha (policiesMean_each'.2 hmean)
    by_cases hq : ∀ d ∈ ds, d = Decision.notApplicable
    · rw [combinePolicies_quiet alg ds hq] at h2
      exact ⟨_, _, h1, h2, .inl rfl⟩
    · have hds' : ∀ d ∈ ds, ∃ p ∈ ps, d = .notApplicable ∨
          (d = .indeterminate ∧ ∀ b, ¬ Applies env r (targetOf p) b) := by
        clear hmean h2 hq h1 hc hne hs
        induction ps generalizing ds with
        | nil => rw [each_nil] at hds; subst hds; simp
        | cons x xs ih =>
          obtain ⟨d, ds', rfl, k1, k2⟩ := hds
          intro d' hd'
          rcases List.mem_cons.1 hd' with rfl | hd'
          · exact ⟨x, by simp, k1.2⟩
          · obtain ⟨y, hy, k⟩ := ih ds' k2 d' hd'
            exact ⟨y, by simp [hy], k⟩
      rw [combinePolicies_idle alg ds (fun d hm => by
          obtain ⟨_, _, k | ⟨k, _⟩⟩ := hds' d hm
          · exact .inl k
          · exact .inr k) hq] at h2
      refine ⟨_, _, h1, h2, .inr (.inl ⟨?_, rfl, rfl⟩)⟩
      simp only [Classical.not_forall] at hq
      obtain ⟨d, hm, hne⟩ := hq
      obtain ⟨p, hr, k | ⟨_, k⟩⟩ := hds' d hm
      · exact absurd k hne
      · exact ⟨p, hr, k⟩
  · have h1 := PolicyMeans.setTargetFails (ps := ps) (hdr := hdr) (ht ▸ h)
    have hmean : Each (PolicyMeans env r) (ps.map (policyWithin t)) (ps.map fun _ => .indeterminate) := by
      rw [each_map]
      exact each_map_right _ fun p hm => policy_fails (hs p hm) h
    have h2 := PolicyMeans.policies (hdr := { hdr with target := none }) hn ha (policiesMean_each'.2 hmean)
    rw [combinePolicies_idle alg _ (by simp) (by
      obtain ⟨p, hm⟩ := List.exists_mem_of_ne_nil ps hne
      exact fun k => by simpa using k .indeterminate (List.mem_map.2 ⟨p, hm, rfl⟩))] at h2
    by_cases hd : alg = .denyOverrides
    · rw [if_pos hd] at h2
      exact ⟨_, _, h1, h2, .inr (.inr ⟨h, hd, rfl, rfl⟩)⟩
    · rw [if_neg hd] at h2
      exact ⟨_, _, h1, h2, .inl rfl⟩

private theorem allComplete_iff {ps : List PolicyNode} : AllComplete ps ↔ ∀ p ∈ ps, Complete p := by
  induction ps with
  | nil => simp [AllComplete]
  | cons p ps ih => simp [AllComplete, ih]

private theorem complete_within {t : Target} {p : PolicyNode} (h : Complete p) : Complete (policyWithin t p) := by
  cases p with
  | policy hdr rules => exact h
  | policySet hdr ps => exact h

private theorem complete_moved_set {hdr : Header} {t : Target} {ps : List PolicyNode} (hc : Complete (.policySet hdr ps)) :
    Complete (.policySet { hdr with target := none } (ps.map (policyWithin t))) := by
  refine ⟨hc.1, allComplete_iff.2 fun x hx => ?_⟩
  obtain ⟨y, hy, rfl⟩ := List.mem_map.1 hx
  exact complete_within (allComplete_iff.1 hc.2 y hy)

/-- C101: likewise the target of a policy set and those of its policies, if the targets of the policies do not fail, nor,
with deny-overrides, that of the set. -/
theorem C101_policies (env : Env) (r : Request) (hp : StatelessPip (some r)) (hdr : Header) (t : Target)
    (ht : hdr.target = some t) (ps : List PolicyNode) (hne : ps ≠ []) (hc : Complete (.policySet hdr ps))
    (hs : ∀ p ∈ ps, ∀ u, targetOf p = some u → Separate t u)
    (hok : ∀ p ∈ ps, ∃ b, Applies env r (targetOf p) b)
    (hd : hdr.alg = some .denyOverrides → ∃ b, Applies env r (some t) b) {w w' : World} (hw : History env.re w)
    (hw' : History env.re w') :
    (pdpEvaluate env (some (.policySet hdr ps)) (some r) w).1 =
      (pdpEvaluate env (some (.policySet { hdr with target := none } (ps.map (policyWithin t)))) (some r) w').1 := by
  obtain ⟨alg, ha⟩ := Option.ne_none_iff_exists'.1 hc.1
  obtain ⟨d, d', h1, h2, h3⟩ := moved_policies (env := env) ht ha hne (allComplete_iff.1 hc.2) hs hp
  rcases h3 with rfl | ⟨⟨p, hm, hf⟩, _⟩ | ⟨hf, rfl, _⟩
  · exact (decides hp hc hw h1).trans (decides hp (complete_moved_set hc) hw' h2).symm
  · obtain ⟨b, hb⟩ := hok p hm
    exact absurd hb (hf b)
  · obtain ⟨b, hb⟩ := hd ha
    exact absurd hb (hf b)

/-- C101: whatever fails, writing the target of a policy set into its policies at most turns NotApplicable or
Indeterminate into Deny, or NotApplicable into Indeterminate. -/
theorem C101_policies_never_grants (env : Env) (r : Request) (hp : StatelessPip (some r)) (hdr : Header) (t : Target)
    (ht : hdr.target = some t) (ps : List PolicyNode) (hne : ps ≠ []) (hc : Complete (.policySet hdr ps))
    (hs : ∀ p ∈ ps, ∀ u, targetOf p = some u → Separate t u) {w w' : World} (hw : History env.re w)
    (hw' : History env.re w') : ∃ d d', Answers env (.policySet hdr ps) r w d ∧
      Answers env (.policySet { hdr with target := none } (ps.map (policyWithin t))) r w' d' ∧
      (d' = d ∨ (d = .notApplicable ∧ d' = .indeterminate) ∨
        (hdr.alg = some .denyOverrides ∧ (d = .notApplicable ∨ d = .indeterminate) ∧ d' = .deny)) := by
  obtain ⟨alg, ha⟩ := Option.ne_none_iff_exists'.1 hc.1
  obtain ⟨d, d', h1, h2, h3⟩ := moved_policies (env := env) ht ha hne (allComplete_iff.1 hc.2) hs hp
  refine ⟨d, d', decides hp hc hw h1, decides hp (complete_moved_set hc) hw' h2, ?_⟩
  rcases h3 with rfl | ⟨_, rfl, rfl⟩ | ⟨_, rfl, rfl, rfl⟩
  · exact .inl rfl
  · by_cases hd : alg = .denyOverrides
    · subst hd
      exact .inr (.inr ⟨ha, .inl rfl, rfl⟩)
    · rw [if_neg hd]
      exact .inr (.inl ⟨rfl, rfl⟩)
  · exact .inr (.inr ⟨ha, .inr rfl, rfl⟩)

/-! ## Alternatives as several rules or policies -/

private theorem section_alternatives {cs ds : List TargetChild} (hc : cs ≠ []) (hd : ds ≠ []) (b : Bool) :
    SectionIs env r (cs ++ ds) b ↔ ∃ b1 b2, SectionIs env r cs b1 ∧ SectionIs env r ds b2 ∧ b = (b1 || b2) := by
  have hb : ∀ P : Prop, ∃ b : Bool, b = true ↔ P := fun P => by
    rcases Classical.em P with h | h
    · exact ⟨true, by simp [h]⟩
    · exact ⟨false, by simp [h]⟩
  have hne : ∀ {xs : List TargetChild} {es}, xs ≠ [] → SectionMeans env r xs es → es ≠ [] := by
    rintro (_ | ⟨x, xs⟩) es hx h rfl
    · exact hx rfl
    · obtain ⟨_, _, h, _⟩ := h
      cases h
  have hm : ∀ {e1 e2 : List (List Bool)}, e1 ≠ [] → e2 ≠ [] →
      (SectionMatches (e1 ++ e2) ↔ SectionMatches e1 ∨ SectionMatches e2) := by
    intro e1 e2 h1 h2
    simp only [SectionMatches, List.append_eq_nil_iff, h1, h2, false_and, false_or, List.mem_append]
    constructor
    · rintro ⟨x, h | h, k⟩
      · exact .inl ⟨x, h, k⟩
      · exact .inr ⟨x, h, k⟩
    · rintro (⟨x, h, k⟩ | ⟨x, h, k⟩)
      · exact ⟨x, .inl h, k⟩
      · exact ⟨x, .inr h, k⟩
  constructor
  · rintro ⟨es, h, he⟩
    obtain ⟨e1, e2, rfl, h1, h2⟩ := each_append.1 h
    obtain ⟨b1, k1⟩ := hb (SectionMatches e1)
    obtain ⟨b2, k2⟩ := hb (SectionMatches e2)
    refine ⟨b1, b2, ⟨e1, h1, k1⟩, ⟨e2, h2, k2⟩, ?_⟩
    rw [hm (hne hc h1) (hne hd h2), ← k1, ← k2] at he
    clear k1 k2 hm hb hne h h1 h2
    cases b <;> cases b1 <;> cases b2 <;> simp_all
  · rintro ⟨b1, b2, ⟨e1, h1, k1⟩, ⟨e2, h2, k2⟩, rfl⟩
    refine ⟨e1 ++ e2, each_append.2 ⟨e1, e2, rfl, h1, h2⟩, ?_⟩
    rw [hm (hne hc h1) (hne hd h2), ← k1, ← k2]
    cases b1 <;> cases b2 <;> simp

private theorem applies_alternatives (cat : Category) (t : Target) {cs ds : List TargetChild} (hc : cs ≠ []) (hd : ds ≠ [])
    (hp : StatelessPip (some r)) (b : Bool) : Applies env r (some (withSection t (cs ++ ds) cat)) b ↔
      ∃ b1 b2, Applies env r (some (withSection t cs cat)) b1 ∧ Applies env r (some (withSection t ds cat)) b2 ∧
        b = (b1 || b2) := by
  have hu : ∀ {xs : List TargetChild} {a b}, SectionIs env r xs a → SectionIs env r xs b → a = b := by
    intro xs a b h h'
    have e : ∀ {c}, SectionIs env r xs c → Applies env r (some { subjects := xs, resources := [], actions := [], environments := [] }) c :=
      fun {c} hc => (applies_sections _ _).2 ⟨c, true, true, true, hc, (section_empty _).2 rfl, (section_empty _).2 rfl,
        (section_empty _).2 rfl, by simp⟩
    exact applies_unique hp (e h) (e h')
  cases cat <;> simp only [withSection, applies_sections, section_alternatives hc hd]
  · constructor
    · rintro ⟨_, x, y, z, ⟨a1, a2, h1, h2, rfl⟩, hx, hy, hz, rfl⟩
      exact ⟨_, _, ⟨a1, x, y, z, h1, hx, hy, hz, rfl⟩, ⟨a2, x, y, z, h2, hx, hy, hz, rfl⟩,
        by cases a1 <;> cases a2 <;> cases x <;> cases y <;> cases z <;> rfl⟩
    · rintro ⟨_, _, ⟨a1, x, y, z, h1, hx, hy, hz, rfl⟩, ⟨a2, x', y', z', h2, hx', hy', hz', rfl⟩, rfl⟩
      obtain rfl := hu hx hx'; obtain rfl := hu hy hy'; obtain rfl := hu hz hz'
      exact ⟨_, x, y, z, ⟨a1, a2, h1, h2, rfl⟩, hx, hy, hz,
        by cases a1 <;> cases a2 <;> cases x <;> cases y <;> cases z <;> rfl⟩
  · constructor
    · rintro ⟨x, _, y, z, hx, ⟨a1, a2, h1, h2, rfl⟩, hy, hz, rfl⟩
      exact ⟨_, _, ⟨x, a1, y, z, hx, h1, hy, hz, rfl⟩, ⟨x, a2, y, z, hx, h2, hy, hz, rfl⟩,
        by cases a1 <;> cases a2 <;> cases x <;> cases y <;> cases z <;> rfl⟩
    · rintro ⟨_, _, ⟨x, a1, y, z, hx, h1, hy, hz, rfl⟩, ⟨x', a2, y', z', hx', h2, hy', hz', rfl⟩, rfl⟩
      obtain rfl := hu hx hx'; obtain rfl := hu hy hy'; obtain rfl := hu hz hz'
      exact ⟨x, _, y, z, hx, ⟨a1, a2, h1, h2, rfl⟩, hy, hz,
        by cases a1 <;> cases a2 <;> cases x <;> cases y <;> cases z <;> rfl⟩
  · constructor
    · rintro ⟨x, y, _, z, hx, hy, ⟨a1, a2, h1, h2, rfl⟩, hz, rfl⟩
      exact ⟨_, _, ⟨x, y, a1, z, hx, hy, h1, hz, rfl⟩, ⟨x, y, a2, z, hx, hy, h2, hz, rfl⟩,
        by cases a1 <;> cases a2 <;> cases x <;> cases y <;> cases z <;> rfl⟩
    · rintro ⟨_, _, ⟨x, y, a1, z, hx, hy, h1, hz, rfl⟩, ⟨x', y', a2, z', hx', hy', h2, hz', rfl⟩, rfl⟩
      obtain rfl := hu hx hx'; obtain rfl := hu hy hy'; obtain rfl := hu hz hz'
      exact ⟨x, y, _, z, hx, hy, ⟨a1, a2, h1, h2, rfl⟩, hz,
        by cases a1 <;> cases a2 <;> cases x <;> cases y <;> cases z <;> rfl⟩
  · constructor
    · rintro ⟨x, y, z, _, hx, hy, hz, ⟨a1, a2, h1, h2, rfl⟩, rfl⟩
      exact ⟨_, _, ⟨x, y, z, a1, hx, hy, hz, h1, rfl⟩, ⟨x, y, z, a2, hx, hy, hz, h2, rfl⟩,
        by cases a1 <;> cases a2 <;> cases x <;> cases y <;> cases z <;> rfl⟩
    · rintro ⟨_, _, ⟨x, y, z, a1, hx, hy, hz, h1, rfl⟩, ⟨x', y', z', a2, hx', hy', hz', h2, rfl⟩, rfl⟩
      obtain rfl := hu hx hx'; obtain rfl := hu hy hy'; obtain rfl := hu hz hz'
      exact ⟨x, y, z, _, hx, hy, hz, ⟨a1, a2, h1, h2, rfl⟩,
        by cases a1 <;> cases a2 <;> cases x <;> cases y <;> cases z <;> rfl⟩

/-- What a target makes of the decision `X` it guards. -/
private def Guarded (env : Env) (r : Request) (t : Target) (X d : Decision) : Prop :=
  (Applies env r (some t) true ∧ d = X) ∨ (Applies env r (some t) false ∧ d = .notApplicable) ∨
    ((∀ b, ¬ Applies env r (some t) b) ∧ d = .indeterminate)

private theorem guarded_total (t : Target) (X : Decision) : ∃ d, Guarded env r t X d := by
  rcases target_cases env r (some t) with h | h | h
  · exact ⟨_, .inl ⟨h, rfl⟩⟩
  · exact ⟨_, .inr (.inl ⟨h, rfl⟩)⟩
  · exact ⟨_, .inr (.inr ⟨h, rfl⟩)⟩

/-- Two decisions in place of one that make no difference. -/
private def Doubled (d d1 d2 : Decision) : Prop :=
  (d1 = d ∧ d2 = d) ∨ (d1 = d ∧ d2 = .notApplicable) ∨ (d1 = .notApplicable ∧ d2 = d)

private theorem guarded_split (cat : Category) (t : Target) {cs ds : List TargetChild} (hc : cs ≠ []) (hd : ds ≠ [])
    (hp : StatelessPip (some r)) (X : Decision) : ∃ d d1 d2, Guarded env r (withSection t (cs ++ ds) cat) X d ∧
      Guarded env r (withSection t cs cat) X d1 ∧ Guarded env r (withSection t ds cat) X d2 ∧
      (Doubled d d1 d2 ∨ (d = .indeterminate ∧ ((∀ b, ¬ Applies env r (some (withSection t cs cat)) b) ∨
        ∀ b, ¬ Applies env r (some (withSection t ds cat)) b))) := by
  have ha := applies_alternatives (env := env) cat t hc hd hp
  rcases Classical.em (∃ b, Applies env r (some (withSection t cs cat)) b) with ⟨b1, h1⟩ | h1
  · rcases Classical.em (∃ b, Applies env r (some (withSection t ds cat)) b) with ⟨b2, h2⟩ | h2
    · have h := (ha _).2 ⟨b1, b2, h1, h2, rfl⟩
      cases b1 <;> cases b2
      · exact ⟨_, _, _, .inr (.inl ⟨h, rfl⟩), .inr (.inl ⟨h1, rfl⟩), .inr (.inl ⟨h2, rfl⟩), .inl (.inl ⟨rfl, rfl⟩)⟩
      · exact ⟨_, _, _, .inl ⟨h, rfl⟩, .inr (.inl ⟨h1, rfl⟩), .inl ⟨h2, rfl⟩, .inl (.inr (.inr ⟨rfl, rfl⟩))⟩
      · exact ⟨_, _, _, .inl ⟨h, rfl⟩, .inl ⟨h1, rfl⟩, .inr (.inl ⟨h2, rfl⟩), .inl (.inr (.inl ⟨rfl, rfl⟩))⟩
      · exact ⟨_, _, _, .inl ⟨h, rfl⟩, .inl ⟨h1, rfl⟩, .inl ⟨h2, rfl⟩, .inl (.inl ⟨rfl, rfl⟩)⟩
    · obtain ⟨d1, k1⟩ := guarded_total (env := env) (r := r) (withSection t cs cat) X
      refine ⟨_, d1, _, .inr (.inr ⟨fun b hb => ?_, rfl⟩), k1, .inr (.inr ⟨fun b hb => h2 ⟨b, hb⟩, rfl⟩),
        .inr ⟨rfl, .inr fun b hb => h2 ⟨b, hb⟩⟩⟩
      obtain ⟨_, b2, _, k, _⟩ := (ha b).1 hb
      exact h2 ⟨b2, k⟩
  · obtain ⟨d2, k2⟩ := guarded_total (env := env) (r := r) (withSection t ds cat) X
    refine ⟨_, _, d2, .inr (.inr ⟨fun b hb => ?_, rfl⟩), .inr (.inr ⟨fun b hb => h1 ⟨b, hb⟩, rfl⟩), k2,
      .inr ⟨rfl, .inl fun b hb => h1 ⟨b, hb⟩⟩⟩
    obtain ⟨b1, _, k, _⟩ := (ha b).1 hb
    exact h1 ⟨b1, k⟩

private theorem guarded_rule {rule : Rule} {X : Decision} (hX : RuleMeans env r { rule with target := none } X)
    {t : Target} {d : Decision} (h : Guarded env r t X d) : RuleMeans env r { rule with target := some t } d := by
  rcases h with ⟨h, rfl⟩ | ⟨h, rfl⟩ | ⟨h, rfl⟩
  · cases hX with
    | targetFalse k => cases k
    | conditionFalse _ k => exact .conditionFalse h k
    | effect _ k he => exact .effect h k he
    | targetFails k => exact absurd rfl (k true)
    | conditionFails _ k => exact .conditionFails h k
  · exact .targetFalse h
  · exact .targetFails h

private theorem rule_effect {rule : Rule} {e : Effect} (he : rule.effect = some e) {d : Decision}
    (h : RuleMeans env r rule d) : d = effectDecision e ∨ d = .notApplicable ∨ d = .indeterminate := by
  cases h with
  | effect _ _ k => rw [he] at k; injection k with k; subst k; exact .inl rfl
  | targetFalse _ => exact .inr (.inl rfl)
  | conditionFalse _ _ => exact .inr (.inl rfl)
  | targetFails _ => exact .inr (.inr rfl)
  | conditionFails _ _ => exact .inr (.inr rfl)

private theorem find_doubled {d d1 d2 : Decision} (h : Doubled d d1 d2) (D1 D2 : List Decision) :
    Spec.firstApplicable (D1 ++ d1 :: d2 :: D2) = Spec.firstApplicable (D1 ++ d :: D2) := by
  unfold Spec.firstApplicable
  rw [List.find?_append, List.find?_append]
  congr 2
  cases d <;> cases d1 <;> cases d2 <;> simp [Doubled] at h ⊢

private theorem mem_doubled {d d1 d2 : Decision} (h : Doubled d d1 d2) (D1 D2 : List Decision) {x : Decision}
    (hx : x ≠ .notApplicable) : x ∈ D1 ++ d1 :: d2 :: D2 ↔ x ∈ D1 ++ d :: D2 := by
  rcases h with ⟨rfl, rfl⟩ | ⟨rfl, rfl⟩ | ⟨rfl, rfl⟩ <;> simp [hx]

private theorem zip_doubled {d d1 d2 : Decision} (h : Doubled d d1 d2) {E1 : List (Option Effect)} (e : Option Effect)
    (E2 : List (Option Effect)) {D1 : List Decision} (D2 : List Decision) (hl : E1.length = D1.length) (x : Option Effect) :
    (x, Decision.indeterminate) ∈ (E1 ++ e :: e :: E2).zip (D1 ++ d1 :: d2 :: D2) ↔
      (x, Decision.indeterminate) ∈ (E1 ++ e :: E2).zip (D1 ++ d :: D2) := by
  rw [List.zip_append hl, List.zip_append hl]
  rcases h with ⟨rfl, rfl⟩ | ⟨rfl, rfl⟩ | ⟨rfl, rfl⟩ <;> simp

private theorem combineRules_doubled (alg : Alg) {d d1 d2 : Decision} (h : Doubled d d1 d2) {E1 : List (Option Effect)}
    (e : Option Effect) (E2 : List (Option Effect)) {D1 : List Decision} (D2 : List Decision) (hl : E1.length = D1.length) :
    Spec.combineRules alg (E1 ++ e :: e :: E2) (D1 ++ d1 :: d2 :: D2) =
      Spec.combineRules alg (E1 ++ e :: E2) (D1 ++ d :: D2) := by
  cases alg with
  | firstApplicable => exact find_doubled h D1 D2
  | _ =>
    simp only [Spec.combineRules, ruleDenyOverrides, rulePermitOverrides, zip_doubled h e E2 D2 hl,
      mem_doubled h D1 D2 (x := .permit) (by simp), mem_doubled h D1 D2 (x := .deny) (by simp),
      mem_doubled h D1 D2 (x := .indeterminate) (by simp)]

private theorem combinePolicies_doubled (alg : Alg) {d d1 d2 : Decision} (h : Doubled d d1 d2)
    (D1 D2 : List Decision) : Spec.combinePolicies alg (D1 ++ d1 :: d2 :: D2) = Spec.combinePolicies alg (D1 ++ d :: D2) := by
  cases alg with
  | firstApplicable => exact find_doubled h D1 D2
  | _ =>
    simp only [Spec.combinePolicies, policyDenyOverrides, policyPermitOverrides,
      mem_doubled h D1 D2 (x := .permit) (by simp), mem_doubled h D1 D2 (x := .deny) (by simp),
      mem_doubled h D1 D2 (x := .indeterminate) (by simp)]

/-- When the rule for all alternatives fails, the result is the same or Indeterminate. -/
private theorem combineRules_failed (alg : Alg) {d1 d2 : Decision} {e : Effect}
    (h1 : d1 = effectDecision e ∨ d1 = .notApplicable ∨ d1 = .indeterminate)
    (h2 : d2 = effectDecision e ∨ d2 = .notApplicable ∨ d2 = .indeterminate) {E1 : List (Option Effect)}
    (E2 : List (Option Effect)) {D1 : List Decision} (D2 : List Decision) (hl : E1.length = D1.length) :
    Spec.combineRules alg (E1 ++ some e :: some e :: E2) (D1 ++ d1 :: d2 :: D2) =
      Spec.combineRules alg (E1 ++ some e :: E2) (D1 ++ .indeterminate :: D2) ∨
    Spec.combineRules alg (E1 ++ some e :: E2) (D1 ++ .indeterminate :: D2) = .indeterminate := by
  cases alg with
  | firstApplicable =>
    simp only [Spec.combineRules, Spec.firstApplicable, List.find?_append]
    cases D1.find? (· ≠ .notApplicable) with
    | none => right; simp
    | some x => left; simp
  | denyOverrides =>
    simp only [Spec.combineRules, ruleDenyOverrides, List.zip_append hl, List.zip_cons_cons, List.mem_append, List.mem_cons]
    by_cases k1 : Decision.deny ∈ D1 ∨ Decision.deny ∈ D2
    · left
      rw [if_pos, if_pos]
      · rcases k1 with k | k <;> simp [k]
      · rcases k1 with k | k <;> simp [k]
    · have ka : Decision.deny ∉ D1 := fun k => k1 (.inl k)
      have kb : Decision.deny ∉ D2 := fun k => k1 (.inr k)
      cases e with
      | deny => right; simp [ka, kb]
      | permit =>
        simp only [effectDecision] at h1 h2
        rcases h1 with rfl | rfl | rfl <;> rcases h2 with rfl | rfl | rfl <;> simp [ka, kb] <;>
          (by_cases k2 : Decision.permit ∈ D1 ∨ Decision.permit ∈ D2
           · simp [k2]
           · simp [not_or.1 k2])
  | permitOverrides =>
    simp only [Spec.combineRules, rulePermitOverrides, List.zip_append hl, List.zip_cons_cons, List.mem_append, List.mem_cons]
    by_cases k1 : Decision.permit ∈ D1 ∨ Decision.permit ∈ D2
    · left
      rw [if_pos, if_pos]
      · rcases k1 with k | k <;> simp [k]
      · rcases k1 with k | k <;> simp [k]
    · have ka : Decision.permit ∉ D1 := fun k => k1 (.inl k)
      have kb : Decision.permit ∉ D2 := fun k => k1 (.inr k)
      cases e with
      | permit => right; simp [ka, kb]
      | deny =>
        simp only [effectDecision] at h1 h2
        rcases h1 with rfl | rfl | rfl <;> rcases h2 with rfl | rfl | rfl <;> simp [ka, kb] <;>
          (by_cases k2 : Decision.deny ∈ D1 ∨ Decision.deny ∈ D2
           · simp [k2]
           · simp [not_or.1 k2])

private theorem each_length' {α β} {R : α → β → Prop} {l : List α} {bs : List β} (h : Each R l bs) : l.length = bs.length := by
  induction l generalizing bs with
  | nil => rw [each_nil] at h; subst h; rfl
  | cons a l ih => obtain ⟨b, bs', rfl, _, h⟩ := h; simp [ih h]

private theorem split_rules {hdr : Header} (cat : Category) (t : Target) {cs ds : List TargetChild} (hcs : cs ≠ [])
    (hds : ds ≠ []) {rule : Rule} {pre post : List Rule} (hp : StatelessPip (some r))
    (hc : Complete (.policy hdr (pre ++ { rule with target := some (withSection t (cs ++ ds) cat) } :: post))) :
    ∃ d d', PolicyMeans env r (.policy hdr (pre ++ { rule with target := some (withSection t (cs ++ ds) cat) } :: post)) d ∧
      PolicyMeans env r (.policy hdr (pre ++ { rule with target := some (withSection t cs cat) } ::
        { rule with target := some (withSection t ds cat) } :: post)) d' ∧
      (d' = d ∨ (d = .indeterminate ∧ ((∀ b, ¬ Applies env r (some (withSection t cs cat)) b) ∨
        ∀ b, ¬ Applies env r (some (withSection t ds cat)) b))) := by
  obtain ⟨alg, ha⟩ := Option.ne_none_iff_exists'.1 hc.1
  have he : rule.effect ≠ none := hc.2 { rule with target := some (withSection t (cs ++ ds) cat) }
    (List.mem_append_right pre (List.mem_cons_self ..))
  obtain ⟨e, he'⟩ := Option.ne_none_iff_exists'.1 he
  obtain ⟨X, hX⟩ := rule_total (env := env) hp { rule with target := none } he
  obtain ⟨d, d1, d2, g, g1, g2, hd⟩ := guarded_split (env := env) cat t hcs hds hp X
  have m := guarded_rule hX g
  have m1 := guarded_rule hX g1
  have m2 := guarded_rule hX g2
  obtain ⟨D1, hD1⟩ := each_total fun x hm => rule_total (env := env) hp x (hc.2 x (List.mem_append_left _ hm))
  obtain ⟨D2, hD2⟩ := each_total fun x hm => rule_total (env := env) hp x (hc.2 x (List.mem_append_right pre (List.mem_cons_of_mem _ hm)))
  have hl : (pre.map (·.effect)).length = D1.length := by simpa using each_length' hD1
  rcases target_cases env r hdr.target with h | h | h
  · have e1 : Each (RuleMeans env r) (pre ++ { rule with target := some (withSection t (cs ++ ds) cat) } :: post)
        (D1 ++ d :: D2) := each_append.2 ⟨D1, _, rfl, hD1, d, D2, rfl, m, hD2⟩
    have e2 : Each (RuleMeans env r) (pre ++ { rule with target := some (withSection t cs cat) } ::
        { rule with target := some (withSection t ds cat) } :: post) (D1 ++ d1 :: d2 :: D2) :=
      each_append.2 ⟨D1, _, rfl, hD1, d1, _, rfl, m1, d2, D2, rfl, m2, hD2⟩
    have p1 := PolicyMeans.rules (hdr := hdr) h ha e1
    have p2 := PolicyMeans.rules (hdr := hdr) h ha e2
    simp only [List.map_append, List.map_cons] at p1 p2
    rcases hd with hd | ⟨rfl, hf⟩
    · rw [combineRules_doubled alg hd _ _ D2 hl] at p2
      exact ⟨_, _, p1, p2, .inl rfl⟩
    · have k := combineRules_failed alg (rule_effect (rule := { rule with target := some _ }) he' m1)
        (rule_effect (rule := { rule with target := some _ }) he' m2) (post.map (·.effect)) D2 hl
      rw [← he'] at k
      exact ⟨_, _, p1, p2, k.imp_right fun k => ⟨k, hf⟩⟩
  · exact ⟨_, _, .policyTargetFalse h, .policyTargetFalse h, .inl rfl⟩
  · exact ⟨_, _, .policyTargetFails h, .policyTargetFails h, .inl rfl⟩

private theorem complete_split {hdr : Header} (cat : Category) (t : Target) {cs ds : List TargetChild}
    {rule : Rule} {pre post : List Rule}
    (hc : Complete (.policy hdr (pre ++ { rule with target := some (withSection t (cs ++ ds) cat) } :: post))) :
    Complete (.policy hdr (pre ++ { rule with target := some (withSection t cs cat) } ::
        { rule with target := some (withSection t ds cat) } :: post)) := by
  have he : rule.effect ≠ none := hc.2 { rule with target := some (withSection t (cs ++ ds) cat) }
    (List.mem_append_right pre (List.mem_cons_self ..))
  refine ⟨hc.1, fun x hx => ?_⟩
  simp only [List.mem_append, List.mem_cons] at hx
  rcases hx with h | rfl | rfl | h
  · exact hc.2 x (List.mem_append_left _ h)
  · exact he
  · exact he
  · exact hc.2 x (List.mem_append_right pre (List.mem_cons_of_mem _ h))

/-- C102: a rule for several alternatives can be written as two rules, one for some of them and one for the others, at
any place among other rules and with any combining algorithm, if the targets of the two rules do not fail. -/
theorem C102_rules (env : Env) (r : Request) (hp : StatelessPip (some r)) (hdr : Header) (cat : Category) (t : Target)
    (cs ds : List TargetChild) (hcs : cs ≠ []) (hds : ds ≠ []) (rule : Rule) (pre post : List Rule)
    (hc : Complete (.policy hdr (pre ++ { rule with target := some (withSection t (cs ++ ds) cat) } :: post)))
    (h1 : ∃ b, Applies env r (some (withSection t cs cat)) b) (h2 : ∃ b, Applies env r (some (withSection t ds cat)) b)
    {w w' : World} (hw : History env.re w) (hw' : History env.re w') :
    (pdpEvaluate env (some (.policy hdr (pre ++ { rule with target := some (withSection t (cs ++ ds) cat) } :: post)))
        (some r) w).1 =
      (pdpEvaluate env (some (.policy hdr (pre ++ { rule with target := some (withSection t cs cat) } ::
        { rule with target := some (withSection t ds cat) } :: post))) (some r) w').1 := by
  obtain ⟨d, d', k1, k2, h3⟩ := split_rules (env := env) cat t hcs hds hp hc
  rcases h3 with rfl | ⟨_, hf | hf⟩
  · exact (decides hp hc hw k1).trans (decides hp (complete_split cat t hc) hw' k2).symm
  · exact absurd h1.choose_spec (hf _)
  · exact absurd h2.choose_spec (hf _)

/-- C102: whatever fails, writing two rules as one for all their alternatives at most turns the decision into
Indeterminate. -/
theorem C102_rules_never_grants (env : Env) (r : Request) (hp : StatelessPip (some r)) (hdr : Header) (cat : Category)
    (t : Target) (cs ds : List TargetChild) (hcs : cs ≠ []) (hds : ds ≠ []) (rule : Rule) (pre post : List Rule)
    (hc : Complete (.policy hdr (pre ++ { rule with target := some (withSection t (cs ++ ds) cat) } :: post)))
    {w w' : World} (hw : History env.re w) (hw' : History env.re w') :
    ∃ d d', Answers env (.policy hdr (pre ++ { rule with target := some (withSection t cs cat) } ::
        { rule with target := some (withSection t ds cat) } :: post)) r w' d' ∧
      Answers env (.policy hdr (pre ++ { rule with target := some (withSection t (cs ++ ds) cat) } :: post)) r w d ∧
      (d = d' ∨ d = .indeterminate) := by
  obtain ⟨d, d', k1, k2, h3⟩ := split_rules (env := env) cat t hcs hds hp hc
  exact ⟨d, d', decides hp (complete_split cat t hc) hw' k2, decides hp hc hw k1,
    h3.imp (fun h => h.symm) fun h => h.1⟩

private theorem guarded_policy {p : PolicyNode} (hp : StatelessPip (some r)) (hc : Complete p) :
    ∃ X, ∀ {t : Target} {d : Decision}, Guarded env r t X d → PolicyMeans env r (policyFor t p) d := by
  cases p with
  | policy hdr rules =>
    obtain ⟨alg, ha⟩ := Option.ne_none_iff_exists'.1 hc.1
    obtain ⟨ds, hds⟩ := each_total fun rule hm => rule_total (env := env) hp rule (hc.2 rule hm)
    refine ⟨Spec.combineRules alg (rules.map (·.effect)) ds, fun h => ?_⟩
    rcases h with ⟨h, rfl⟩ | ⟨h, rfl⟩ | ⟨h, rfl⟩
    · exact .rules h ha hds
    · exact .policyTargetFalse h
    · exact .policyTargetFails h
  | policySet hdr ps =>
    obtain ⟨alg, ha⟩ := Option.ne_none_iff_exists'.1 hc.1
    obtain ⟨ds, hds⟩ := each_total fun p hm => policy_total (env := env) hp p (allComplete_iff.1 hc.2 p hm)
    refine ⟨Spec.combinePolicies alg ds, fun h => ?_⟩
    rcases h with ⟨h, rfl⟩ | ⟨h, rfl⟩ | ⟨h, rfl⟩
    · exact .policies h ha (policiesMean_each'.2 hds)
    · exact .setTargetFalse h
    · exact .setTargetFails h

private theorem combinePolicies_failed (alg : Alg) (d1 d2 : Decision) (h : d1 = .indeterminate ∨ d2 = .indeterminate)
    (D1 D2 : List Decision) :
    Spec.combinePolicies alg (D1 ++ d1 :: d2 :: D2) = Spec.combinePolicies alg (D1 ++ .indeterminate :: D2) ∨
    (alg ≠ .denyOverrides ∧ Spec.combinePolicies alg (D1 ++ .indeterminate :: D2) = .indeterminate) ∨
    (alg = .permitOverrides ∧ Spec.combinePolicies alg (D1 ++ .indeterminate :: D2) = .deny) := by
  cases alg with
  | firstApplicable =>
    simp only [Spec.combinePolicies, Spec.firstApplicable, List.find?_append]
    cases D1.find? (· ≠ .notApplicable) with
    | none => right; simp
    | some x => left; simp
  | denyOverrides =>
    left
    simp only [Spec.combinePolicies, policyDenyOverrides]
    rcases h with rfl | rfl <;> simp
  | permitOverrides =>
    simp only [Spec.combinePolicies, policyPermitOverrides, List.mem_append, List.mem_cons]
    by_cases k1 : Decision.permit ∈ D1 ∨ Decision.permit ∈ D2
    · left
      rw [if_pos, if_pos]
      · rcases k1 with k | k <;> simp [k]
      · rcases k1 with k | k <;> simp [k]
    · right
      have ka := not_or.1 k1
      by_cases k2 : Decision.deny ∈ D1 ∨ Decision.deny ∈ D2
      · right; simp [ka, k2]
      · left; simp [ka, not_or.1 k2]

private theorem split_policies {hdr : Header} {alg : Alg} (ha : hdr.alg = some alg) (cat : Category) (t : Target)
    {cs ds : List TargetChild} (hcs : cs ≠ [])
    (hds : ds ≠ []) {p : PolicyNode} {pre post : List PolicyNode} (hp : StatelessPip (some r))
    (hc : ∀ q ∈ pre ++ p :: post, Complete q) :
    ∃ d d', PolicyMeans env r (.policySet hdr (pre ++ policyFor (withSection t (cs ++ ds) cat) p :: post)) d ∧
      PolicyMeans env r (.policySet hdr (pre ++ policyFor (withSection t cs cat) p ::
        policyFor (withSection t ds cat) p :: post)) d' ∧
      (d' = d ∨ (((alg ≠ .denyOverrides ∧ d = .indeterminate) ∨ (alg = .permitOverrides ∧ d = .deny)) ∧
        ((∀ b, ¬ Applies env r (some (withSection t cs cat)) b) ∨
        ∀ b, ¬ Applies env r (some (withSection t ds cat)) b))) := by
  obtain ⟨X, hX⟩ := guarded_policy (env := env) hp (hc p (by simp))
  obtain ⟨d, d1, d2, g, g1, g2, hd⟩ := guarded_split (env := env) cat t hcs hds hp X
  obtain ⟨D1, hD1⟩ := each_total fun x hm => policy_total (env := env) hp x (hc x (List.mem_append_left _ hm))
  obtain ⟨D2, hD2⟩ := each_total fun x hm => policy_total (env := env) hp x (hc x (List.mem_append_right pre (List.mem_cons_of_mem _ hm)))
  rcases target_cases env r hdr.target with h | h | h
  · have e1 : Each (PolicyMeans env r) (pre ++ policyFor (withSection t (cs ++ ds) cat) p :: post) (D1 ++ d :: D2) :=
      each_append.2 ⟨D1, _, rfl, hD1, d, D2, rfl, hX g, hD2⟩
    have e2 : Each (PolicyMeans env r) (pre ++ policyFor (withSection t cs cat) p :: policyFor (withSection t ds cat) p :: post)
        (D1 ++ d1 :: d2 :: D2) := each_append.2 ⟨D1, _, rfl, hD1, d1, _, rfl, hX g1, d2, D2, rfl, hX g2, hD2⟩
    have p1 := PolicyMeans.policies (hdr := hdr) h ha (policiesMean_each'.2 e1)
    have p2 := PolicyMeans.policies (hdr := hdr) h ha (policiesMean_each'.2 e2)
    rcases hd with hd | ⟨rfl, hf⟩
    · rw [combinePolicies_doubled alg hd] at p2
      exact ⟨_, _, p1, p2, .inl rfl⟩
    · have hi : d1 = .indeterminate ∨ d2 = .indeterminate := by
        rcases hf with hf | hf
        · rcases g1 with ⟨k, _⟩ | ⟨k, _⟩ | ⟨_, k⟩
          · exact absurd k (hf _)
          · exact absurd k (hf _)
          · exact .inl k
        · rcases g2 with ⟨k, _⟩ | ⟨k, _⟩ | ⟨_, k⟩
          · exact absurd k (hf _)
          · exact absurd k (hf _)
          · exact .inr k
      exact ⟨_, _, p1, p2, (combinePolicies_failed alg d1 d2 hi D1 D2).imp_right fun k => ⟨k, hf⟩⟩
  · exact ⟨_, _, .setTargetFalse h, .setTargetFalse h, .inl rfl⟩
  · exact ⟨_, _, .setTargetFails h, .setTargetFails h, .inl rfl⟩

private theorem complete_for {t : Target} {p : PolicyNode} (h : Complete p) : Complete (policyFor t p) := by
  cases p <;> exact h

private theorem complete_merged {hdr : Header} (t : Target) {p : PolicyNode} {pre post : List PolicyNode}
    (hc : Complete (.policySet hdr (pre ++ p :: post))) : Complete (.policySet hdr (pre ++ policyFor t p :: post)) := by
  refine ⟨hc.1, allComplete_iff.2 fun x hx => ?_⟩
  have := allComplete_iff.1 hc.2
  simp only [List.mem_append, List.mem_cons] at hx this
  rcases hx with h | rfl | h
  · exact this x (.inl h)
  · exact complete_for (this p (.inr (.inl rfl)))
  · exact this x (.inr (.inr h))

private theorem complete_split_set {hdr : Header} (t u : Target) {p : PolicyNode} {pre post : List PolicyNode}
    (hc : Complete (.policySet hdr (pre ++ p :: post))) :
    Complete (.policySet hdr (pre ++ policyFor t p :: policyFor u p :: post)) := by
  refine ⟨hc.1, allComplete_iff.2 fun x hx => ?_⟩
  have := allComplete_iff.1 hc.2
  simp only [List.mem_append, List.mem_cons] at hx this
  rcases hx with h | rfl | rfl | h
  · exact this x (.inl h)
  · exact complete_for (this p (.inr (.inl rfl)))
  · exact complete_for (this p (.inr (.inl rfl)))
  · exact this x (.inr (.inr h))

/-- C102: likewise a policy or policy set for several alternatives in a policy set; with deny-overrides it does not matter
whether the targets fail. -/
theorem C102_policies (env : Env) (r : Request) (hp : StatelessPip (some r)) (hdr : Header) (cat : Category) (t : Target)
    (cs ds : List TargetChild) (hcs : cs ≠ []) (hds : ds ≠ []) (p : PolicyNode) (pre post : List PolicyNode)
    (hc : Complete (.policySet hdr (pre ++ p :: post)))
    (hok : hdr.alg ≠ some .denyOverrides → (∃ b, Applies env r (some (withSection t cs cat)) b) ∧
      ∃ b, Applies env r (some (withSection t ds cat)) b)
    {w w' : World} (hw : History env.re w) (hw' : History env.re w') :
    (pdpEvaluate env (some (.policySet hdr (pre ++ policyFor (withSection t (cs ++ ds) cat) p :: post))) (some r) w).1 =
      (pdpEvaluate env (some (.policySet hdr (pre ++ policyFor (withSection t cs cat) p ::
        policyFor (withSection t ds cat) p :: post))) (some r) w').1 := by
  obtain ⟨alg, ha⟩ := Option.ne_none_iff_exists'.1 hc.1
  obtain ⟨d, d', k1, k2, h3⟩ := split_policies (env := env) ha cat t hcs hds hp (allComplete_iff.1 hc.2)
  have hend : d' = d → _ := fun h : d' = d =>
    (decides hp (complete_merged _ hc) hw k1).trans (h ▸ decides hp (complete_split_set _ _ hc) hw' k2).symm
  rcases h3 with h | ⟨hh, hf⟩
  · exact hend h
  · have hne : hdr.alg ≠ some .denyOverrides := by
      rw [ha]
      rintro ⟨⟩
      rcases hh with ⟨h, _⟩ | ⟨h, _⟩
      · exact h rfl
      · cases h
    obtain ⟨h1, h2⟩ := hok hne
    rcases hf with hf | hf
    · exact absurd h1.choose_spec (hf _)
    · exact absurd h2.choose_spec (hf _)

/-- C102: whatever fails, writing two policies as one for all their alternatives at most turns the decision into
Indeterminate or Deny. -/
theorem C102_policies_never_grants (env : Env) (r : Request) (hp : StatelessPip (some r)) (hdr : Header) (cat : Category)
    (t : Target) (cs ds : List TargetChild) (hcs : cs ≠ []) (hds : ds ≠ []) (p : PolicyNode) (pre post : List PolicyNode)
    (hc : Complete (.policySet hdr (pre ++ p :: post))) {w w' : World} (hw : History env.re w) (hw' : History env.re w') :
    ∃ d d', Answers env (.policySet hdr (pre ++ policyFor (withSection t cs cat) p ::
        policyFor (withSection t ds cat) p :: post)) r w' d' ∧
      Answers env (.policySet hdr (pre ++ policyFor (withSection t (cs ++ ds) cat) p :: post)) r w d ∧
      (d = d' ∨ d = .indeterminate ∨ d = .deny) := by
  obtain ⟨alg, ha⟩ := Option.ne_none_iff_exists'.1 hc.1
  obtain ⟨d, d', k1, k2, h3⟩ := split_policies (env := env) ha cat t hcs hds hp (allComplete_iff.1 hc.2)
  refine ⟨d, d', decides hp (complete_split_set _ _ hc) hw' k2, decides hp (complete_merged _ hc) hw k1, ?_⟩
  rcases h3 with rfl | ⟨⟨_, h⟩ | ⟨_, h⟩, _⟩
  · exact .inl rfl
  · exact .inr (.inl h)
  · exact .inr (.inr h)

/-! ## Rules in several policies -/

private theorem flatten_find (D1 D D2 : List Decision) :
    Spec.firstApplicable (D1 ++ Spec.firstApplicable D :: D2) = Spec.firstApplicable (D1 ++ (D ++ D2)) := by
  unfold Spec.firstApplicable
  simp only [List.find?_append]
  congr 2
  cases h : D.find? (· ≠ .notApplicable) with
  | none => simp
  | some x =>
    have := List.find?_some h
    simp at this
    simp [this]

private theorem zip_flat {groups : List (List (Option Effect) × List Decision)} (hl : ∀ g ∈ groups, g.1.length = g.2.length)
    (x : Option Effect × Decision) : x ∈ (groups.flatMap (·.1)).zip (groups.flatMap (·.2)) ↔
      ∃ g ∈ groups, x ∈ g.1.zip g.2 := by
  induction groups with
  | nil => simp
  | cons g gs ih =>
    have hg := hl g (by simp)
    simp only [List.flatMap_cons, List.zip_append hg, List.mem_append, ih fun y hy => hl y (by simp [hy]), List.mem_cons,
      exists_eq_or_imp]

private theorem groups_first (groups : List (List (Option Effect) × List Decision)) :
    Spec.firstApplicable (groups.map fun g => Spec.firstApplicable g.2) = Spec.firstApplicable (groups.flatMap (·.2)) := by
  induction groups with
  | nil => rfl
  | cons g gs ih =>
    have h := flatten_find [] g.2 (gs.map fun g => Spec.firstApplicable g.2)
    simp only [List.nil_append] at h
    simp only [List.map_cons, List.flatMap_cons]
    rw [h]
    unfold Spec.firstApplicable at ih ⊢
    simp only [List.find?_append]
    cases hg : g.2.find? (· ≠ .notApplicable) with
    | none => simpa using ih
    | some x => simp

private theorem groups_combine (alg : Alg) (groups : List (List (Option Effect) × List Decision))
    (hl : ∀ g ∈ groups, g.1.length = g.2.length) :
    Spec.combinePolicies alg (groups.map fun g => Spec.combineRules alg g.1 g.2) =
        Spec.combineRules alg (groups.flatMap (·.1)) (groups.flatMap (·.2)) ∨
      (Spec.combinePolicies alg (groups.map fun g => Spec.combineRules alg g.1 g.2) = .deny ∧
        ∃ g ∈ groups, Decision.indeterminate ∈ g.2 ∧ alg ≠ .firstApplicable) := by
  have hmem : ∀ d : Decision, d ∈ groups.flatMap (·.2) ↔ ∃ g ∈ groups, d ∈ g.2 := fun d => by simp [List.mem_flatMap]
  have hr : ∀ d : Decision, d ∈ groups.map (fun g => Spec.combineRules alg g.1 g.2) ↔ ∃ g ∈ groups, Spec.combineRules alg g.1 g.2 = d :=
    fun d => by simp [List.mem_map]
  cases alg with
  | firstApplicable => exact .inl (groups_first groups)
  | denyOverrides =>
    by_cases hd : (∃ g ∈ groups, Spec.combineRules .denyOverrides g.1 g.2 = .deny) ∨
        ∃ g ∈ groups, Spec.combineRules .denyOverrides g.1 g.2 = .indeterminate
    · have hD : Spec.combinePolicies .denyOverrides (groups.map fun g => Spec.combineRules .denyOverrides g.1 g.2) = .deny := by
        simp only [Spec.combinePolicies, policyDenyOverrides, hr]
        rw [if_pos hd]
      rcases hd with ⟨g, hg, h⟩ | ⟨g, hg, h⟩
      · left
        rw [hD]
        have : Decision.deny ∈ g.2 := by
          simp only [Spec.combineRules, ruleDenyOverrides] at h
          split at h
          · assumption
          · repeat (split at h; · cases h)
            cases h
        simp only [Spec.combineRules, ruleDenyOverrides, hmem]
        rw [if_pos ⟨g, hg, this⟩]
      · right
        refine ⟨hD, g, hg, ?_, by simp⟩
        simp only [Spec.combineRules, ruleDenyOverrides] at h
        split at h
        · cases h
        · split at h
          · rename_i k; exact zip_mem_right k
          · split at h
            · cases h
            · split at h
              · assumption
              · cases h
    · left
      obtain ⟨hd1, hd2⟩ := not_or.1 hd
      have h1 : ∀ g ∈ groups, Decision.deny ∉ g.2 := fun g hg k => hd1 ⟨g, hg, by
        simp [Spec.combineRules, ruleDenyOverrides, k]⟩
      have h2 : ∀ g ∈ groups, (some Effect.deny, Decision.indeterminate) ∉ g.1.zip g.2 := fun g hg k => hd2 ⟨g, hg, by
        simp [Spec.combineRules, ruleDenyOverrides, h1 g hg, k]⟩
      have h3 : ∀ g ∈ groups, (Spec.combineRules .denyOverrides g.1 g.2 = .permit ↔ Decision.permit ∈ g.2) := fun g hg => by
        simp only [Spec.combineRules, ruleDenyOverrides, h1 g hg, h2 g hg, if_false]
        by_cases k : Decision.permit ∈ g.2
        · simp [k]
        · simp only [k, if_false, iff_false]
          split <;> simp
      have h4 : ∀ g ∈ groups, Decision.indeterminate ∈ g.2 → Decision.permit ∈ g.2 := fun g hg k => Classical.byContradiction fun k' =>
        hd2 ⟨g, hg, by simp [Spec.combineRules, ruleDenyOverrides, h1 g hg, h2 g hg, k', k]⟩
      have e1 : ¬ ∃ g ∈ groups, Decision.deny ∈ g.2 := fun ⟨g, hg, k⟩ => h1 g hg k
      have e2 : ¬ ∃ g ∈ groups, (some Effect.deny, Decision.indeterminate) ∈ g.1.zip g.2 := fun ⟨g, hg, k⟩ => h2 g hg k
      have e3 : (∃ g ∈ groups, Spec.combineRules .denyOverrides g.1 g.2 = .permit) ↔ ∃ g ∈ groups, Decision.permit ∈ g.2 :=
        ⟨fun ⟨g, hg, k⟩ => ⟨g, hg, (h3 g hg).1 k⟩, fun ⟨g, hg, k⟩ => ⟨g, hg, (h3 g hg).2 k⟩⟩
      show policyDenyOverrides _ = ruleDenyOverrides _ _
      simp only [policyDenyOverrides, ruleDenyOverrides, hr, hmem, zip_flat hl]
      rw [if_neg hd, if_neg e1, if_neg e2]
      by_cases k : ∃ g ∈ groups, Decision.permit ∈ g.2
      · rw [if_pos k, if_pos (e3.2 k)]
      · rw [if_neg k, if_neg (fun h => k (e3.1 h)), if_neg fun ⟨g, hg, h⟩ => k ⟨g, hg, h4 g hg h⟩]
  | permitOverrides =>
    by_cases hp : ∃ g ∈ groups, Decision.permit ∈ g.2
    · left
      obtain ⟨g, hg, k⟩ := hp
      have : Spec.combineRules .permitOverrides g.1 g.2 = .permit := by simp [Spec.combineRules, rulePermitOverrides, k]
      show policyPermitOverrides _ = rulePermitOverrides _ _
      simp only [policyPermitOverrides, rulePermitOverrides, hr, hmem]
      rw [if_pos ⟨g, hg, this⟩, if_pos ⟨g, hg, k⟩]
    · have h1 : ∀ g ∈ groups, Decision.permit ∉ g.2 := fun g hg k => hp ⟨g, hg, k⟩
      have e0 : ¬ ∃ g ∈ groups, Spec.combineRules .permitOverrides g.1 g.2 = .permit := by
        rintro ⟨g, hg, k⟩
        simp only [Spec.combineRules, rulePermitOverrides, h1 g hg, if_false] at k
        repeat (split at k; · cases k)
        cases k
      have hP : Spec.combinePolicies .permitOverrides (groups.map fun g => Spec.combineRules .permitOverrides g.1 g.2) =
          if ∃ g ∈ groups, Spec.combineRules .permitOverrides g.1 g.2 = .deny then .deny
          else if ∃ g ∈ groups, Spec.combineRules .permitOverrides g.1 g.2 = .indeterminate then .indeterminate
          else .notApplicable := by
        show policyPermitOverrides _ = _
        simp only [policyPermitOverrides, hr]
        rw [if_neg e0]
      have hR : Spec.combineRules .permitOverrides (groups.flatMap (·.1)) (groups.flatMap (·.2)) =
          if ∃ g ∈ groups, (some Effect.permit, Decision.indeterminate) ∈ g.1.zip g.2 then .indeterminate
          else if ∃ g ∈ groups, Decision.deny ∈ g.2 then .deny
          else if ∃ g ∈ groups, Decision.indeterminate ∈ g.2 then .indeterminate
          else .notApplicable := by
        show rulePermitOverrides _ _ = _
        simp only [rulePermitOverrides, hmem, zip_flat hl]
        rw [if_neg hp]
      have hone : ∀ g ∈ groups, Spec.combineRules .permitOverrides g.1 g.2 =
          if (some Effect.permit, Decision.indeterminate) ∈ g.1.zip g.2 then .indeterminate
          else if Decision.deny ∈ g.2 then .deny
          else if Decision.indeterminate ∈ g.2 then .indeterminate
          else .notApplicable := fun g hg => by
        simp only [Spec.combineRules, rulePermitOverrides, h1 g hg, if_false]
      rw [hP, hR]
      by_cases k1 : ∃ g ∈ groups, (some Effect.permit, Decision.indeterminate) ∈ g.1.zip g.2
      · obtain ⟨g, hg, k⟩ := k1
        by_cases k2 : ∃ g ∈ groups, Spec.combineRules .permitOverrides g.1 g.2 = .deny
        · right
          exact ⟨by rw [if_pos k2], g, hg, zip_mem_right k, by simp⟩
        · left
          rw [if_neg k2, if_pos ⟨g, hg, by rw [hone g hg, if_pos k]⟩, if_pos ⟨g, hg, k⟩]
      · left
        have hone' : ∀ g ∈ groups, Spec.combineRules .permitOverrides g.1 g.2 = if Decision.deny ∈ g.2 then .deny
            else if Decision.indeterminate ∈ g.2 then .indeterminate else .notApplicable := fun g hg => by
          rw [hone g hg, if_neg fun k => k1 ⟨g, hg, k⟩]
        rw [if_neg k1]
        by_cases k2 : ∃ g ∈ groups, Decision.deny ∈ g.2
        · obtain ⟨g, hg, k⟩ := k2
          rw [if_pos ⟨g, hg, by rw [hone' g hg, if_pos k]⟩, if_pos ⟨g, hg, k⟩]
        · have hone'' : ∀ g ∈ groups, Spec.combineRules .permitOverrides g.1 g.2 =
              if Decision.indeterminate ∈ g.2 then .indeterminate else .notApplicable := fun g hg => by
            rw [hone' g hg, if_neg fun k => k2 ⟨g, hg, k⟩]
          rw [if_neg k2, if_neg]
          · by_cases k3 : ∃ g ∈ groups, Decision.indeterminate ∈ g.2
            · obtain ⟨g, hg, k⟩ := k3
              rw [if_pos ⟨g, hg, by rw [hone'' g hg, if_pos k]⟩, if_pos ⟨g, hg, k⟩]
            · rw [if_neg k3, if_neg]
              rintro ⟨g, hg, k⟩
              rw [hone'' g hg, if_neg fun k' => k3 ⟨g, hg, k'⟩] at k
              cases k
          · rintro ⟨g, hg, k⟩
            rw [hone'' g hg] at k
            split at k <;> cases k

private theorem grouped_rules {hdr : Header} {alg : Alg} (ha : hdr.alg = some alg) {groups : List (List Rule)}
    (hc : ∀ g ∈ groups, ∀ rule ∈ g, rule.effect ≠ none) (hp : StatelessPip (some r)) :
    ∃ d d', PolicyMeans env r (.policy hdr groups.flatten) d ∧ PolicyMeans env r (.policySet hdr (asPolicies hdr groups)) d' ∧
      (d' = d ∨ (d' = .deny ∧ alg ≠ .firstApplicable ∧ ∃ g ∈ groups, ∃ rule ∈ g, RuleMeans env r rule .indeterminate)) := by
  rcases target_cases env r hdr.target with h | h | h
  · have hds : ∃ gs : List (List (Option Effect) × List Decision), Each (fun g p => p.1 = g.map (·.effect) ∧ Each (RuleMeans env r) g p.2) groups gs :=
      each_total fun g hg => by
        obtain ⟨ds, h⟩ := each_total fun rule hm => rule_total (env := env) hp rule (hc g hg rule hm)
        exact ⟨(_, ds), rfl, h⟩
    obtain ⟨gs, hgs⟩ := hds
    have hl : ∀ g ∈ gs, g.1.length = g.2.length := by
      clear hc
      induction groups generalizing gs with
      | nil => rw [each_nil] at hgs; subst hgs; simp
      | cons g groups ih =>
        obtain ⟨p, gs, rfl, k1, k2⟩ := hgs
        intro q hq
        rcases List.mem_cons.1 hq with rfl | hq
        · rw [k1.1, List.length_map, each_length' k1.2]
        · exact ih gs k2 q hq
    have hflat : groups.flatten.map (·.effect) = gs.flatMap (·.1) ∧ Each (RuleMeans env r) groups.flatten (gs.flatMap (·.2)) := by
      clear hc hl
      induction groups generalizing gs with
      | nil => rw [each_nil] at hgs; subst hgs; exact ⟨rfl, rfl⟩
      | cons g groups ih =>
        obtain ⟨p, gs, rfl, k1, k2⟩ := hgs
        obtain ⟨i1, i2⟩ := ih gs k2
        simp only [List.flatten_cons, List.map_append, List.flatMap_cons]
        exact ⟨by rw [k1.1, i1], each_append.2 ⟨_, _, rfl, k1.2, i2⟩⟩
    have hparts : Each (PolicyMeans env r) (asPolicies hdr groups) (gs.map fun g => Spec.combineRules alg g.1 g.2) := by
      clear hc hl hflat
      induction groups generalizing gs with
      | nil => rw [each_nil] at hgs; subst hgs; rfl
      | cons g groups ih =>
        obtain ⟨p, gs, rfl, k1, k2⟩ := hgs
        refine ⟨_, _, rfl, ?_, ih gs k2⟩
        show PolicyMeans env r (.policy { hdr with target := none } g) (Spec.combineRules alg p.1 p.2)
        rw [k1.1]
        exact .rules (hdr := { hdr with target := none }) rfl ha k1.2
    have p1 := PolicyMeans.rules (hdr := hdr) h ha hflat.2
    rw [hflat.1] at p1
    refine ⟨_, _, p1, .policies h ha (policiesMean_each'.2 hparts), (groups_combine alg gs hl).imp_right ?_⟩
    rintro ⟨k, g, hg, hi, hne⟩
    refine ⟨k, hne, ?_⟩
    clear hc hl hflat hparts p1 k
    induction groups generalizing gs with
    | nil => rw [each_nil] at hgs; subst hgs; cases hg
    | cons x groups ih =>
      obtain ⟨p, gs, rfl, k1, k2⟩ := hgs
      rcases List.mem_cons.1 hg with rfl | hg
      · have : ∀ {rs : List Rule} {ds}, Each (RuleMeans env r) rs ds → Decision.indeterminate ∈ ds →
            ∃ rule ∈ rs, RuleMeans env r rule .indeterminate := by
          intro rs
          induction rs with
          | nil => intro ds h; rw [each_nil] at h; subst h; simp
          | cons a rs ih =>
            rintro _ ⟨d, ds, rfl, m1, m2⟩ hm
            rcases List.mem_cons.1 hm with rfl | hm
            · exact ⟨a, by simp, m1⟩
            · obtain ⟨b, hb, m⟩ := ih m2 hm
              exact ⟨b, by simp [hb], m⟩
        obtain ⟨rule, hm, m⟩ := this k1.2 hi
        exact ⟨x, by simp, rule, hm, m⟩
      · obtain ⟨y, hy, k⟩ := ih gs k2 hg
        exact ⟨y, by simp [hy], k⟩
  · exact ⟨_, _, .policyTargetFalse h, .setTargetFalse h, .inl rfl⟩
  · exact ⟨_, _, .policyTargetFails h, .setTargetFails h, .inl rfl⟩

private theorem complete_groups {hdr : Header} {groups : List (List Rule)} (hc : Complete (.policy hdr groups.flatten)) :
    (∀ g ∈ groups, ∀ rule ∈ g, rule.effect ≠ none) ∧ Complete (.policySet hdr (asPolicies hdr groups)) := by
  have h : ∀ g ∈ groups, ∀ rule ∈ g, rule.effect ≠ none := fun g hg rule hm => hc.2 rule (List.mem_flatten.2 ⟨g, hg, hm⟩)
  refine ⟨h, hc.1, allComplete_iff.2 fun x hx => ?_⟩
  obtain ⟨g, hg, rfl⟩ := List.mem_map.1 hx
  exact ⟨hc.1, h g hg⟩

/-- C87: the rules of a policy can be put, group by group and in order, into policies of a policy set with the same
combining algorithm, if no rule is Indeterminate or the algorithm is first-applicable. -/
theorem C87_groups_partial (env : Env) (r : Request) (hp : StatelessPip (some r)) (hdr : Header) (groups : List (List Rule))
    (hc : Complete (.policy hdr groups.flatten))
    (hok : hdr.alg ≠ some .firstApplicable → ∀ g ∈ groups, ∀ rule ∈ g, ¬ RuleMeans env r rule .indeterminate)
    {w w' : World} (hw : History env.re w) (hw' : History env.re w') :
    (pdpEvaluate env (some (.policy hdr groups.flatten)) (some r) w).1 =
      (pdpEvaluate env (some (.policySet hdr (asPolicies hdr groups))) (some r) w').1 := by
  obtain ⟨alg, ha⟩ := Option.ne_none_iff_exists'.1 hc.1
  obtain ⟨h1, h2⟩ := complete_groups hc
  obtain ⟨d, d', k1, k2, h3⟩ := grouped_rules (env := env) ha h1 hp
  rcases h3 with rfl | ⟨_, hne, g, hg, rule, hm, k⟩
  · exact (decides hp hc hw k1).trans (decides hp h2 hw' k2).symm
  · exact absurd k (hok (by rw [ha]; rintro ⟨⟩; exact hne rfl) g hg rule hm)

/-- C87: whatever fails, putting rules into policies at most turns the decision into Deny. -/
theorem C87_groups_never_grants (env : Env) (r : Request) (hp : StatelessPip (some r)) (hdr : Header)
    (groups : List (List Rule)) (hc : Complete (.policy hdr groups.flatten))
    {w w' : World} (hw : History env.re w) (hw' : History env.re w') :
    ∃ d d', Answers env (.policy hdr groups.flatten) r w d ∧ Answers env (.policySet hdr (asPolicies hdr groups)) r w' d' ∧
      (d' = d ∨ d' = .deny) := by
  obtain ⟨alg, ha⟩ := Option.ne_none_iff_exists'.1 hc.1
  obtain ⟨h1, h2⟩ := complete_groups hc
  obtain ⟨d, d', k1, k2, h3⟩ := grouped_rules (env := env) ha h1 hp
  exact ⟨d, d', decides hp hc hw k1, decides hp h2 hw' k2, h3.imp_right fun h => h.1⟩

end

/-! ## Non-vacuity and limits -/

section
open Samples

private theorem req_stateless : StatelessPip (some req) := by
  intro r hr pip hp
  injection hr with hr
  subst hr
  cases hp

private def isOk (x : Except Exc Bool) (b : Bool) : Bool :=
  match x with
  | .ok c => c == b
  | .error _ => false

private theorem sample_applies (t : Option Target) (b : Bool) (h : isOk (targetMatch env t (some req) start).1 b = true) :
    Applies env req t b := by
  refine (C64_target env req req_stateless t (w := start) .start b).1 ?_
  cases hx : (targetMatch env t (some req) start).1 with
  | ok c => rw [hx] at h; rw [eq_of_beq h]
  | error e => rw [hx] at h; cases h

private theorem sample_decides {p : PolicyNode} {d : Decision} (h : gives (pdpEvaluate env (some p) (some req) w0).1 d = true) :
    Answers env p req w0 d := of_gives h

/-- A target for an action. -/
def actionTarget (s : String) : Target :=
  { subjects := [], resources := [], actions := [{ matches_ := [actMatch s] }], environments := [] }

/-- The hypotheses of C101_rules are met by a policy for reading with rules for roles; it permits reading for
administrators. -/
example : Complete (.policy (hdr .denyOverrides (some (actionTarget "read"))) [roleRule .permit "admin", roleRule .deny "guest"]) ∧
    (∀ rule ∈ [roleRule .permit "admin", roleRule .deny "guest"], ∀ u, rule.target = some u → Separate (actionTarget "read") u) ∧
    (∀ rule ∈ [roleRule .permit "admin", roleRule .deny "guest"], ∃ b, Applies env req rule.target b) ∧
    Answers env (.policy (hdr .denyOverrides (some (actionTarget "read"))) [roleRule .permit "admin", roleRule .deny "guest"])
      req w0 .permit ∧
    Answers env (.policy (hdr .denyOverrides (some (actionTarget "write"))) [roleRule .permit "admin", roleRule .deny "guest"])
      req w0 .notApplicable := by
  refine ⟨by simp [Complete, hdr, roleRule], ?_, ?_, sample_decides (by decide +kernel), sample_decides (by decide +kernel)⟩
  · simp [roleRule, Separate, actionTarget, roleTarget]
  · intro rule hm
    simp only [List.mem_cons, List.not_mem_nil, or_false] at hm
    rcases hm with rfl | rfl
    · exact ⟨true, sample_applies _ _ (by decide +kernel)⟩
    · exact ⟨false, sample_applies _ _ (by decide +kernel)⟩

/-- The hypotheses of C101_policies likewise. -/
example : Complete (.policySet (hdr .denyOverrides (some (actionTarget "read")))
      [.policy (hdr .firstApplicable (some (roleTarget "admin"))) [always .permit]]) ∧
    (∃ b, Applies env req (some (actionTarget "read")) b) ∧
    (∀ p ∈ [PolicyNode.policy (hdr .firstApplicable (some (roleTarget "admin"))) [always .permit]], (∀ u, targetOf p = some u →
      Separate (actionTarget "read") u) ∧ ∃ b, Applies env req (targetOf p) b) := by
  refine ⟨by simp [Complete, AllComplete, hdr, always], ⟨true, sample_applies _ _ (by decide +kernel)⟩, ?_⟩
  intro p hm
  simp only [List.mem_cons, List.not_mem_nil, or_false] at hm
  subst hm
  refine ⟨?_, true, sample_applies _ _ (by decide +kernel)⟩
  simp [targetOf, hdr, Separate, actionTarget, roleTarget]

/-- C101 does not extend to targets that restrict the same section: written into the rule, the policy's target becomes an
alternative, and the decision Permit. -/
theorem C101_separate_needed : ∃ (t : Target) (rule : Rule), ∃ u, rule.target = some u ∧
    Answers env (.policy (hdr .denyOverrides (some t)) [rule]) req w0 .notApplicable ∧
    Answers env (.policy (hdr .denyOverrides) [ruleWithin t rule]) req w0 .permit :=
  ⟨roleTarget "guest", roleRule .permit "admin", roleTarget "admin", rfl, sample_decides (by decide +kernel), sample_decides (by decide +kernel)⟩

/-- A target that fails when the action is not given. -/
def failingAction : Target :=
  { subjects := [], resources := [], actions := [{ matches_ := [{ actMatch "x" with designator := some (.action, missingDes) }] }]
    environments := [] }

/-- C101 does not extend to failing targets: a rule's own failing target makes the policy Indeterminate instead of
NotApplicable; a failing target of a policy set written into its policies makes deny-overrides deny; and a failing target
of a policy without rules is lost. -/
theorem C101_success_needed :
    (Answers env (.policy (hdr .denyOverrides (some (actionTarget "write"))) [failing .permit]) req w0 .notApplicable ∧
      Answers env (.policy (hdr .denyOverrides) [ruleWithin (actionTarget "write") (failing .permit)]) req w0 .indeterminate) ∧
    (Answers env (.policySet (hdr .denyOverrides (some failingAction)) [.policy (hdr .denyOverrides) [always .permit]])
        req w0 .indeterminate ∧
      Answers env (.policySet (hdr .denyOverrides) [policyWithin failingAction (.policy (hdr .denyOverrides) [always .permit])])
        req w0 .deny) ∧
    (Answers env (.policy (hdr .denyOverrides (some failingAction)) []) req w0 .indeterminate ∧
      Answers env (.policy (hdr .denyOverrides) []) req w0 .notApplicable) :=
  ⟨⟨sample_decides (by decide +kernel), sample_decides (by decide +kernel)⟩, ⟨sample_decides (by decide +kernel),
    sample_decides (by decide +kernel)⟩, sample_decides (by decide +kernel), sample_decides (by decide +kernel)⟩

/-- A target for either of two roles, and its parts. -/
def eitherRole (a b : String) : Target :=
  withSection (actionTarget "read") ([{ matches_ := [roleMatch a] }] ++ [{ matches_ := [roleMatch b] }]) .subject

/-- The hypotheses of C102_rules are met by a rule for guests or administrators that come second. -/
example : (∃ b, Applies env req (some (withSection (actionTarget "read") [{ matches_ := [roleMatch "guest"] }] .subject)) b) ∧
    (∃ b, Applies env req (some (withSection (actionTarget "read") [{ matches_ := [roleMatch "admin"] }] .subject)) b) ∧
    Complete (.policy (hdr .firstApplicable) ([roleRule .deny "guest"] ++
      { always .permit with target := some (eitherRole "guest" "admin") } :: [always .deny])) ∧
    Answers env (.policy (hdr .firstApplicable) ([roleRule .deny "guest"] ++
      { always .permit with target := some (eitherRole "guest" "admin") } :: [always .deny])) req w0 .permit :=
  ⟨⟨false, sample_applies _ _ (by decide +kernel)⟩, ⟨true, sample_applies _ _ (by decide +kernel)⟩, by simp [Complete, hdr, always, roleRule],
    sample_decides (by decide +kernel)⟩

/-- And those of C102_policies by a policy in a set. -/
example : Complete (.policySet (hdr .permitOverrides) ([] ++ .policy (hdr .firstApplicable) [always .permit] ::
      [.policy (hdr .firstApplicable) [always .deny]])) ∧
    Answers env (.policySet (hdr .permitOverrides) ([] ++ policyFor (eitherRole "guest" "admin")
      (.policy (hdr .firstApplicable) [always .permit]) :: [.policy (hdr .firstApplicable) [always .deny]])) req w0 .permit :=
  ⟨by simp [Complete, AllComplete, hdr, always], sample_decides (by decide +kernel)⟩

/-- C102 does not extend to failing alternatives: one that fails keeps a rule from applying although another alternative is
true, and of two rules the other one permits. With permit-overrides in a policy set, Deny becomes Permit. -/
theorem C102_success_needed :
    (Answers env (.policy (hdr .permitOverrides) [{ always .permit with target := some (withSection (roleTarget "x")
        ([{ matches_ := [errMatch] }] ++ [{ matches_ := [roleMatch "admin"] }]) .subject) }]) req w0 .indeterminate ∧
      Answers env (.policy (hdr .permitOverrides) [
        { always .permit with target := some (withSection (roleTarget "x") [{ matches_ := [errMatch] }] .subject) },
        { always .permit with target := some (withSection (roleTarget "x") [{ matches_ := [roleMatch "admin"] }] .subject) }])
        req w0 .permit) ∧
    (Answers env (.policySet (hdr .permitOverrides) [policyFor (withSection (roleTarget "x")
        ([{ matches_ := [errMatch] }] ++ [{ matches_ := [roleMatch "admin"] }]) .subject)
        (.policy (hdr .denyOverrides) [always .permit]), .policy (hdr .denyOverrides) [always .deny]]) req w0 .deny ∧
      Answers env (.policySet (hdr .permitOverrides) [
        policyFor (withSection (roleTarget "x") [{ matches_ := [errMatch] }] .subject) (.policy (hdr .denyOverrides) [always .permit]),
        policyFor (withSection (roleTarget "x") [{ matches_ := [roleMatch "admin"] }] .subject)
          (.policy (hdr .denyOverrides) [always .permit]), .policy (hdr .denyOverrides) [always .deny]]) req w0 .permit) :=
  ⟨⟨sample_decides (by decide +kernel), sample_decides (by decide +kernel)⟩, sample_decides (by decide +kernel),
    sample_decides (by decide +kernel)⟩

/-- The hypotheses of C87_groups_partial are met by two groups of rules none of which fails. -/
example : Complete (.policy (hdr .denyOverrides) [[always .permit, roleRule .permit "guest"], [roleRule .deny "admin"]].flatten) ∧
    (∀ g ∈ [[always .permit, roleRule .permit "guest"], [roleRule .deny "admin"]], ∀ rule ∈ g,
      ¬ RuleMeans env req rule .indeterminate) ∧
    Answers env (.policy (hdr .denyOverrides) [[always .permit, roleRule .permit "guest"], [roleRule .deny "admin"]].flatten)
      req w0 .deny := by
  refine ⟨by simp [Complete, hdr, always, roleRule], ?_, sample_decides (by decide +kernel)⟩
  intro g hg rule hm h
  have hok : ∃ b, Applies env req rule.target b := by
    simp only [List.mem_cons, List.not_mem_nil, or_false] at hg
    rcases hg with rfl | rfl <;> simp only [List.mem_cons, List.not_mem_nil, or_false] at hm
    · rcases hm with rfl | rfl
      · exact ⟨true, rfl⟩
      · exact ⟨false, sample_applies _ _ (by decide +kernel)⟩
    · subst hm
      exact ⟨true, sample_applies _ _ (by decide +kernel)⟩
  have hcnd : rule.condition = none := by
    simp only [List.mem_cons, List.not_mem_nil, or_false] at hg
    rcases hg with rfl | rfl <;> simp only [List.mem_cons, List.not_mem_nil, or_false] at hm
    · rcases hm with rfl | rfl <;> rfl
    · subst hm; rfl
  obtain ⟨b, hb⟩ := hok
  generalize hd : Decision.indeterminate = d at h
  cases h with
  | targetFails k => exact k b hb
  | conditionFails _ k => rw [hcnd] at k; exact k true rfl
  | @effect e _ _ _ => cases e <;> cases hd
  | targetFalse _ => cases hd
  | conditionFalse _ _ => cases hd

/-- C87 does not extend to failing rules: a rule that permits and one that might have permitted, in one policy, permit; in
two policies of a deny-overrides set they deny. -/
theorem C87_groups_violated :
    Answers env (.policy (hdr .denyOverrides) [[always .permit], [failing .permit]].flatten) req w0 .permit ∧
    Answers env (.policySet (hdr .denyOverrides) (asPolicies (hdr .denyOverrides) [[always .permit], [failing .permit]]))
      req w0 .deny :=
  ⟨sample_decides (by decide +kernel), sample_decides (by decide +kernel)⟩

end

end Xacml
