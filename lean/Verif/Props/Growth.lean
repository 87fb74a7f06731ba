import Verif.Spec.Growth
import Verif.Props.Semantics

/-!
# C70: adding rules
-/
namespace Xacml
open Spec

private theorem inserted_mem {α} {P : α → Prop} {l l' : List α} (h : Inserted P l l') (a : α) :
    (a ∈ l → a ∈ l') ∧ (a ∈ l' → a ∈ l ∨ P a) := by
  induction h with
  | nil => simp
  | keep h ih =>
    simp only [List.mem_cons]
    exact ⟨fun h => h.imp id ih.1, fun h => h.elim (fun h => .inl (.inl h)) fun h => (ih.2 h).imp .inr id⟩
  | add hp h ih =>
    simp only [List.mem_cons]
    exact ⟨fun h => .inr (ih.1 h), fun h => h.elim (fun h => .inr (h ▸ hp)) ih.2⟩

/-- What adding rules of effect `e` may do to a decision: nothing, or make it the effect or Indeterminate. -/
private def Moves (e : Effect) (d d' : Decision) : Prop := d' = d ∨ d' = effectDecision e ∨ d' = .indeterminate

private theorem zip_fst_snd {α β} (z : List (α × β)) : (z.map Prod.fst).zip (z.map Prod.snd) = z := by
  induction z with
  | nil => rfl
  | cons a z ih => simp [ih]

private theorem first_moves (e : Effect) {z z' : List (Option Effect × Decision)}
    (h : Inserted (fun p => p.1 = some e ∧ (p.2 = effectDecision e ∨ p.2 = .notApplicable ∨ p.2 = .indeterminate)) z z') :
    Moves e (Spec.firstApplicable (z.map Prod.snd)) (Spec.firstApplicable (z'.map Prod.snd)) := by
  induction h with
  | nil => exact .inl rfl
  | @keep a l l' h ih =>
    obtain ⟨x, d⟩ := a
    cases d <;> first
      | exact .inl rfl
      | (simpa [Spec.firstApplicable] using ih)
  | @add a l l' hp h ih =>
    obtain ⟨x, d⟩ := a
    obtain ⟨-, hp⟩ := hp
    by_cases hd : d = .notApplicable
    · subst hd; simpa [Spec.firstApplicable] using ih
    · have : Spec.firstApplicable (((x, d) :: l').map Prod.snd) = d := by
        simp [Spec.firstApplicable, hd]
      rw [this]
      rcases hp with hp | hp | hp
      · exact .inr (.inl hp)
      · exact absurd hp hd
      · exact .inr (.inr hp)

/-- The deny-overrides table; `D`, `Z`, `P`, `I`: some Deny, some potential Deny, some Permit, some Indeterminate. -/
private theorem table_moves (e : Effect) (D Z P I D' Z' P' I' : Prop) [Decidable D] [Decidable Z] [Decidable P] [Decidable I]
    [Decidable D'] [Decidable Z'] [Decidable P'] [Decidable I'] (_hz : Z → I) (hd : D → D') (hp : P → P') (hi : I → I') (hzz : Z → Z')
    (h1 : e = .deny → P' → P) (h2 : e = .permit → D' → D) (h3 : e = .permit → Z' → Z) :
    Moves e (if D then .deny else if Z then .indeterminate else if P then .permit else if I then .indeterminate else .notApplicable)
      (if D' then .deny else if Z' then .indeterminate else if P' then .permit else if I' then .indeterminate else .notApplicable) := by
  unfold Moves
  cases e <;> simp only [effectDecision, forall_const, reduceCtorEq, false_implies] at * <;>
    by_cases D' <;> by_cases Z' <;> by_cases P' <;> by_cases I' <;>
    by_cases D <;> by_cases Z <;> by_cases P <;> by_cases I <;> simp_all

/-- The permit-overrides table. -/
private theorem table_moves' (e : Effect) (D Z P I D' Z' P' I' : Prop) [Decidable D] [Decidable Z] [Decidable P] [Decidable I]
    [Decidable D'] [Decidable Z'] [Decidable P'] [Decidable I'] (_hz : Z → I) (hd : P → P') (hp : D → D') (hi : I → I') (hzz : Z → Z')
    (h1 : e = .deny → P' → P) (h2 : e = .permit → D' → D) (h3 : e = .deny → Z' → Z) :
    Moves e (if P then .permit else if Z then .indeterminate else if D then .deny else if I then .indeterminate else .notApplicable)
      (if P' then .permit else if Z' then .indeterminate else if D' then .deny else if I' then .indeterminate else .notApplicable) := by
  unfold Moves
  cases e <;> simp only [effectDecision, forall_const, reduceCtorEq, false_implies] at * <;>
    by_cases D' <;> by_cases Z' <;> by_cases P' <;> by_cases I' <;>
    by_cases D <;> by_cases Z <;> by_cases P <;> by_cases I <;> simp_all

private theorem combine_moves (e : Effect) (alg : Alg) {z z' : List (Option Effect × Decision)}
    (h : Inserted (fun p => p.1 = some e ∧ (p.2 = effectDecision e ∨ p.2 = .notApplicable ∨ p.2 = .indeterminate)) z z') :
    Moves e (Spec.combineRules alg (z.map Prod.fst) (z.map Prod.snd))
      (Spec.combineRules alg (z'.map Prod.fst) (z'.map Prod.snd)) := by
  have up : ∀ d, d ∈ z.map Prod.snd → d ∈ z'.map Prod.snd := by
    intro d hd
    obtain ⟨p, hp, rfl⟩ := List.mem_map.1 hd
    exact List.mem_map.2 ⟨p, (inserted_mem h p).1 hp, rfl⟩
  have down : ∀ d, d ∈ z'.map Prod.snd → d ∈ z.map Prod.snd ∨ d = effectDecision e ∨ d = .notApplicable ∨ d = .indeterminate := by
    intro d hd
    obtain ⟨p, hp, rfl⟩ := List.mem_map.1 hd
    rcases (inserted_mem h p).2 hp with hp | ⟨-, hp⟩
    · exact .inl (List.mem_map.2 ⟨p, hp, rfl⟩)
    · exact .inr hp
  have upz := fun p => (inserted_mem h p).1
  have downz : ∀ p, p ∈ z' → p ∈ z ∨ p.1 = some e := fun p hp => ((inserted_mem h p).2 hp).imp id And.left
  cases alg with
  | firstApplicable => exact first_moves e h
  | denyOverrides =>
    simp only [Spec.combineRules, ruleDenyOverrides, zip_fst_snd]
    refine table_moves e _ _ _ _ _ _ _ _ ?_ (up _) (up _) (up _) (upz _) ?_ ?_ ?_
    · exact fun h => List.mem_map.2 ⟨_, h, rfl⟩
    · rintro rfl hd; simpa [effectDecision] using down _ hd
    · rintro rfl hd; simpa [effectDecision] using down _ hd
    · rintro rfl hz; simpa using downz _ hz
  | permitOverrides =>
    simp only [Spec.combineRules, rulePermitOverrides, zip_fst_snd]
    refine table_moves' e _ _ _ _ _ _ _ _ ?_ (up _) (up _) (up _) (upz _) ?_ ?_ ?_
    · exact fun h => List.mem_map.2 ⟨_, h, rfl⟩
    · rintro rfl hd; simpa [effectDecision] using down _ hd
    · rintro rfl hd; simpa [effectDecision] using down _ hd
    · rintro rfl hz; simpa using downz _ hz

private theorem rule_moves (env : Env) (r : Request) (hs : StatelessPip (some r)) (rule : Rule) (e : Effect)
    (he : rule.effect = some e) (d : Decision) (h : RuleMeans env r rule d) :
    d = effectDecision e ∨ d = .notApplicable ∨ d = .indeterminate := by
  cases h with
  | targetFalse => exact .inr (.inl rfl)
  | conditionFalse => exact .inr (.inl rfl)
  | effect _ _ h => rw [he] at h; injection h with h; exact .inl (h ▸ rfl)
  | targetFails => exact .inr (.inr rfl)
  | conditionFails => exact .inr (.inr rfl)

private theorem rules_inserted (env : Env) (r : Request) (hs : StatelessPip (some r)) (e : Effect)
    {rs rs' : List Rule} (hi : Inserted (fun r : Rule => r.effect = some e) rs rs')
    (hc : ∀ rule ∈ rs', rule.effect ≠ none) {ds ds' : List Decision}
    (h : Each (RuleMeans env r) rs ds) (h' : Each (RuleMeans env r) rs' ds') :
    ∃ z z', Inserted (fun p => p.1 = some e ∧ (p.2 = effectDecision e ∨ p.2 = .notApplicable ∨ p.2 = .indeterminate)) z z' ∧
      z.map Prod.fst = rs.map (·.effect) ∧ z.map Prod.snd = ds ∧
      z'.map Prod.fst = rs'.map (·.effect) ∧ z'.map Prod.snd = ds' := by
  induction hi generalizing ds ds' with
  | nil =>
    rw [each_nil] at h h'
    subst h h'
    exact ⟨[], [], .nil, rfl, rfl, rfl, rfl⟩
  | @keep a l l' hi ih =>
    rw [each_cons] at h h'
    obtain ⟨d, ds, rfl, hd, h⟩ := h
    obtain ⟨d', ds', rfl, hd', h'⟩ := h'
    obtain ⟨z, z', hz, h1, h2, h3, h4⟩ := ih (fun r hr => hc r (by simp [hr])) h h'
    have ha := hc a (by simp)
    have hdd : d' = d := by
      rw [← rule_den env r hs a ha] at hd hd'
      rw [hd] at hd'; injection hd' with hd'; exact hd'.symm
    exact ⟨(a.effect, d) :: z, (a.effect, d') :: z', hdd ▸ .keep hz, by simp [h1], by simp [h2], by simp [h3], by simp [h4]⟩
  | @add a l l' ha hi ih =>
    rw [each_cons] at h'
    obtain ⟨d', ds', rfl, hd', h'⟩ := h'
    obtain ⟨z, z', hz, h1, h2, h3, h4⟩ := ih (fun r hr => hc r (by simp [hr])) h h'
    exact ⟨z, (a.effect, d') :: z', .add ⟨ha, rule_moves env r hs a e ha d' hd'⟩ hz, h1, h2, by simp [h3], by simp [h4]⟩

private theorem policy_rules_moves (env : Env) (r : Request) (hs : StatelessPip (some r)) (e : Effect) (hdr : Header)
    {rs rs' : List Rule} (hi : Inserted (fun r : Rule => r.effect = some e) rs rs')
    (hc : ∀ rule ∈ rs', rule.effect ≠ none) {d d' : Decision}
    (h : PolicyMeans env r (.policy hdr rs) d) (h' : PolicyMeans env r (.policy hdr rs') d') : Moves e d d' := by
  cases h with
  | @rules _ _ alg ds ht ha hds =>
    cases h' with
    | @rules _ _ alg' ds' ht' ha' hds' =>
      rw [ha] at ha'; injection ha' with ha'; subst ha'
      obtain ⟨z, z', hz, h1, h2, h3, h4⟩ := rules_inserted env r hs e hi hc hds hds'
      rw [← h1, ← h2, ← h3, ← h4]
      exact combine_moves e alg hz
    | policyTargetFalse ht' => cases applies_unique hs ht ht'
    | policyTargetFails ht' => exact absurd ht (ht' _)
  | policyTargetFalse ht =>
    cases h' with
    | rules ht' => cases applies_unique hs ht ht'
    | policyTargetFalse ht' => exact .inl rfl
    | policyTargetFails ht' => exact absurd ht (ht' _)
  | policyTargetFails ht =>
    cases h' with
    | rules ht' => exact absurd ht' (ht _)
    | policyTargetFalse ht' => exact absurd ht' (ht _)
    | policyTargetFails ht' => exact .inl rfl

/-- Decisions move pointwise. -/
private inductive MoveAll : List Decision → List Decision → Prop
  | nil : MoveAll [] []
  | cons {d d' ds ds'} : Moves .deny d d' → MoveAll ds ds' → MoveAll (d :: ds) (d' :: ds')

private theorem moveAll_mem {ds ds' : List Decision} (h : MoveAll ds ds') :
    (.permit ∈ ds' → .permit ∈ ds) ∧ (∀ d ∈ ds, d ∈ ds' ∨ .deny ∈ ds' ∨ .indeterminate ∈ ds') := by
  induction h with
  | nil => simp
  | cons hd h ih =>
    obtain ⟨ih1, ih2⟩ := ih
    constructor
    · intro h
      rcases List.mem_cons.1 h with h | h
      · rcases hd with hd | hd | hd
        · rw [h, hd]; simp
        · rw [← h] at hd; cases hd
        · rw [← h] at hd; cases hd
      · exact List.mem_cons_of_mem _ (ih1 h)
    · intro x hx
      rcases List.mem_cons.1 hx with rfl | hx
      · rcases hd with hd | hd | hd
        · rw [hd]; simp
        · rw [hd]; simp [effectDecision]
        · rw [hd]; simp
      · rcases ih2 x hx with h | h | h <;> simp [h]

private theorem policies_moves (alg : Alg) {ds ds' : List Decision} (h : MoveAll ds ds') :
    Moves .deny (Spec.combinePolicies alg ds) (Spec.combinePolicies alg ds') := by
  cases alg with
  | denyOverrides =>
    obtain ⟨h1, h2⟩ := moveAll_mem h
    have a := h2 .deny; have b := h2 .indeterminate; have c := h2 .permit
    simp only [Spec.combinePolicies, policyDenyOverrides]
    clear h2 h
    unfold Moves
    simp only [effectDecision]
    by_cases x1 : Decision.deny ∈ ds' ∨ Decision.indeterminate ∈ ds'
    · simp [x1]
    · have : Decision.deny ∉ ds ∧ Decision.indeterminate ∉ ds := by
        constructor <;> intro hx <;> simp_all
      have hp : Decision.permit ∈ ds ↔ Decision.permit ∈ ds' := ⟨fun hx => (c hx).elim id fun h => absurd h x1, h1⟩
      simp [x1, this, hp]
  | permitOverrides =>
    obtain ⟨h1, h2⟩ := moveAll_mem h
    have a := h2 .deny; have b := h2 .indeterminate; have c := h2 .permit
    simp only [Spec.combinePolicies, policyPermitOverrides]
    clear h2 h
    unfold Moves
    simp only [effectDecision]
    by_cases x1 : Decision.permit ∈ ds'
    · simp [x1, h1 x1]
    · by_cases x2 : Decision.deny ∈ ds'
      · simp [x1, x2]
      · by_cases x3 : Decision.indeterminate ∈ ds'
        · simp [x1, x2, x3]
        · have e1 : Decision.permit ∉ ds := fun hx => by simpa [x1, x2, x3] using c hx
          have e2 : Decision.deny ∉ ds := fun hx => by simpa [x1, x2, x3] using a hx
          have e3 : Decision.indeterminate ∉ ds := fun hx => by simpa [x1, x2, x3] using b hx
          simp [x1, x2, x3, e1, e2, e3]
  | firstApplicable =>
    induction h with
    | nil => exact .inl rfl
    | @cons d d' ds ds' hd h ih =>
      simp only [Spec.combinePolicies] at ih ⊢
      by_cases hn : d' = .notApplicable
      · have : d = .notApplicable := by
          rcases hd with hd | hd | hd
          · rw [← hd, hn]
          · rw [hn] at hd; cases hd
          · rw [hn] at hd; cases hd
        subst hn this
        simpa [Spec.firstApplicable] using ih
      · have e' : Spec.firstApplicable (d' :: ds') = d' := by simp [Spec.firstApplicable, hn]
        rw [e']
        rcases hd with hd | hd | hd
        · subst hd
          exact .inl (by simp [Spec.firstApplicable, hn])
        · exact .inr (.inl hd)
        · exact .inr (.inr hd)

mutual
private theorem tree_moves (env : Env) (r : Request) (hs : StatelessPip (some r)) : (p p' : PolicyNode) →
    RulesAdded .deny p p' → Complete p' → ∀ {d d'}, PolicyMeans env r p d → PolicyMeans env r p' d' →
    Moves .deny d d'
  | .policy hdr rs, .policy hdr' rs', ha, hc, d, d', h, h' => by
    cases ha with
    | policy hi => exact policy_rules_moves env r hs .deny hdr hi hc.2 h h'
  | .policySet hdr ps, .policySet hdr' ps', ha, hc, d, d', h, h' => by
    cases ha with
    | policySet ha =>
      cases h with
      | @policies _ _ alg ds ht halg hds =>
        cases h' with
        | @policies _ _ alg' ds' ht' halg' hds' =>
          rw [halg] at halg'; injection halg' with halg'; subst halg'
          exact policies_moves alg (trees_move env r hs ps ps' ha hc.2 hds hds')
        | setTargetFalse ht' => cases applies_unique hs ht ht'
        | setTargetFails ht' => exact absurd ht (ht' _)
      | setTargetFalse ht =>
        cases h' with
        | policies ht' => cases applies_unique hs ht ht'
        | setTargetFalse ht' => exact .inl rfl
        | setTargetFails ht' => exact absurd ht (ht' _)
      | setTargetFails ht =>
        cases h' with
        | policies ht' => exact absurd ht' (ht _)
        | setTargetFalse ht' => exact absurd ht' (ht _)
        | setTargetFails ht' => exact .inl rfl
  | .policy _ _, .policySet _ _, ha, _, _, _, _, _ => by cases ha
  | .policySet _ _, .policy _ _, ha, _, _, _, _, _ => by cases ha
private theorem trees_move (env : Env) (r : Request) (hs : StatelessPip (some r)) : (ps ps' : List PolicyNode) →
    AllRulesAdded .deny ps ps' → AllComplete ps' → ∀ {ds ds'}, PoliciesMean env r ps ds → PoliciesMean env r ps' ds' →
    MoveAll ds ds'
  | [], [], _, _, ds, ds', h, h' => by cases h; cases h'; exact .nil
  | p :: ps, p' :: ps', ha, hc, ds, ds', h, h' => by
    cases ha with
    | cons ha has =>
      cases h with
      | cons h hs1 =>
        cases h' with
        | cons h' hs2 => exact .cons (tree_moves env r hs p p' ha hc.1 h h') (trees_move env r hs ps ps' has hc.2 hs1 hs2)
  | [], _ :: _, ha, _, _, _, _, _ => by cases ha
  | _ :: _, [], ha, _, _, _, _, _ => by cases ha
end

mutual
private theorem complete_of_added {e : Effect} : (p p' : PolicyNode) → RulesAdded e p p' → Complete p' → Complete p
  | .policy hdr rs, .policy hdr' rs', ha, hc => by
    cases ha with
    | policy hi => exact ⟨hc.1, fun r hr => hc.2 r ((inserted_mem hi r).1 hr)⟩
  | .policySet hdr ps, .policySet hdr' ps', ha, hc => by
    cases ha with
    | policySet ha => exact ⟨hc.1, allComplete_of_added ps ps' ha hc.2⟩
  | .policy _ _, .policySet _ _, ha, _ => by cases ha
  | .policySet _ _, .policy _ _, ha, _ => by cases ha
private theorem allComplete_of_added {e : Effect} : (ps ps' : List PolicyNode) → AllRulesAdded e ps ps' →
    AllComplete ps' → AllComplete ps
  | [], [], _, _ => trivial
  | p :: ps, p' :: ps', ha, hc => by
    cases ha with
    | cons ha has => exact ⟨complete_of_added p p' ha hc.1, allComplete_of_added ps ps' has hc.2⟩
  | [], _ :: _, ha, _ => by cases ha
  | _ :: _, [], ha, _ => by cases ha
end

/-- The decisions of the single results in two responses. -/
private theorem pdp_moves {env : Env} {r : Request} (hs : StatelessPip (some r)) {p p' : PolicyNode}
    (hc : Complete p) (hc' : Complete p') {w w' : World} (hw : History env.re w) (hw' : History env.re w')
    {R : Decision → Decision → Prop}
    (h : ∀ d d', PolicyMeans env r p d → PolicyMeans env r p' d' → R d d') :
    ∃ d d', (pdpEvaluate env (some p) (some r) w).1 = .ok { results := [{ decision := d, status := .ok }] } ∧
      (pdpEvaluate env (some p') (some r) w').1 = .ok { results := [{ decision := d', status := .ok }] } ∧ R d d' := by
  obtain ⟨d, hd, h1⟩ := C64_pdp env r hs p hc hw
  obtain ⟨d', hd', h2⟩ := C64_pdp env r hs p' hc' hw'
  exact ⟨d, d', h1, h2, h d d' ((hd d).2 rfl) ((hd' d').2 rfl)⟩

/-- C70: adding Deny rules, anywhere in a tree of policies and policy sets, never grants anything: the decision
for a request stays what it was, or it becomes Deny or Indeterminate. -/
theorem C70_deny_rules (env : Env) (p p' : PolicyNode) (ha : RulesAdded .deny p p') (hc : Complete p')
    (r : Request) (hs : StatelessPip (some r)) {w w' : World} (hw : History env.re w) (hw' : History env.re w') :
    ∃ d d', (pdpEvaluate env (some p) (some r) w).1 = .ok { results := [{ decision := d, status := .ok }] } ∧
      (pdpEvaluate env (some p') (some r) w').1 = .ok { results := [{ decision := d', status := .ok }] } ∧
      (d' = d ∨ d' = .deny ∨ d' = .indeterminate) :=
  pdp_moves hs (complete_of_added p p' ha hc) hc hw hw' fun _ _ => tree_moves env r hs p p' ha hc

/-- C70 for Permit rules, within one policy: the decision stays what it was, or it becomes Permit or
Indeterminate. -/
theorem C70_permit_rules (env : Env) (hdr : Header) (rs rs' : List Rule) (ha : RulesAdded .permit (.policy hdr rs) (.policy hdr rs'))
    (hc : Complete (.policy hdr rs'))
    (r : Request) (hs : StatelessPip (some r)) {w w' : World} (hw : History env.re w) (hw' : History env.re w') :
    ∃ d d', (pdpEvaluate env (some (.policy hdr rs)) (some r) w).1 = .ok { results := [{ decision := d, status := .ok }] } ∧
      (pdpEvaluate env (some (.policy hdr rs')) (some r) w').1 = .ok { results := [{ decision := d', status := .ok }] } ∧
      (d' = d ∨ d' = .permit ∨ d' = .indeterminate) :=
  pdp_moves hs (complete_of_added _ _ ha hc) hc hw hw' fun _ _ h h' => by
    cases ha with
    | policy hi => exact policy_rules_moves env r hs .permit hdr hi hc.2 h h'

/-- C70 for Permit rules does not extend to policy sets: a Permit rule that fails makes a deny-overrides policy
set answer Deny to a request that was permitted. -/
theorem C70_violated_permit_set :
    ∃ (env : Env) (p p' : PolicyNode) (r : Request), RulesAdded .permit p p' ∧ Complete p' ∧ StatelessPip (some r) ∧
      (pdpEvaluate env (some p) (some r) start).1 = .ok { results := [{ decision := .permit, status := .ok }] } ∧
      (pdpEvaluate env (some p') (some r) start).1 = .ok { results := [{ decision := .deny, status := .ok }] } := by
  refine ⟨Samples.env,
    .policySet (Samples.hdr .denyOverrides) [.policy (Samples.hdr .denyOverrides) [Samples.always .permit],
      .policy (Samples.hdr .denyOverrides) []],
    .policySet (Samples.hdr .denyOverrides) [.policy (Samples.hdr .denyOverrides) [Samples.always .permit],
      .policy (Samples.hdr .denyOverrides) [Samples.failing .permit]],
    Samples.req, .policySet (.cons (.policy (.keep .nil)) (.cons (.policy (.add rfl .nil)) .nil)), ?_, ?_, rfl, rfl⟩
  · simp [Complete, AllComplete, Samples.hdr, Samples.always, Samples.failing]
  · intro _ hr pip h; injection hr with hr; subst hr; simp [Samples.req] at h

/-- A Deny rule added below a policy set, and the decisions before and after. -/
example : let p := PolicyNode.policySet (Samples.hdr .permitOverrides) [.policy (Samples.hdr .denyOverrides) [Samples.always .permit]]
    let p' := PolicyNode.policySet (Samples.hdr .permitOverrides)
      [.policy (Samples.hdr .denyOverrides) [Samples.roleRule .deny "staff", Samples.always .permit]]
    RulesAdded .deny p p' ∧ Complete p' ∧ StatelessPip (some Samples.req) ∧
    (pdpEvaluate Samples.env (some p) (some Samples.req) start).1 = .ok { results := [{ decision := .permit, status := .ok }] } ∧
    (pdpEvaluate Samples.env (some p') (some Samples.req) start).1 = .ok { results := [{ decision := .deny, status := .ok }] } := by
  refine ⟨.policySet (.cons (.policy (.add rfl (.keep .nil))) .nil), ?_, ?_, rfl, rfl⟩
  · simp [Complete, AllComplete, Samples.hdr, Samples.always, Samples.roleRule]
  · intro _ hr pip h; injection hr with hr; subst hr; simp [Samples.req] at h

end Xacml
