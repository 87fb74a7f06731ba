import Verif.Spec.Combining
import Verif.Lemmas.Monad

/-! Helper lemmas: the loops compute the tables. -/
namespace Xacml
open Spec

theorem Spec.Runs.exists_of_ok {α} {cs : List (EvalM α)}
    (h : ∀ c ∈ cs, ∀ w, ∃ d w', c w = (.ok d, w')) (w : World) : ∃ ds w', Runs cs w ds w' := by
  induction cs generalizing w with
  | nil => exact ⟨[], w, .nil w⟩
  | cons c cs ih =>
    obtain ⟨d, w1, hc⟩ := h c (by simp) w
    obtain ⟨ds, w2, hr⟩ := ih (fun c hc => h c (by simp [hc])) w1
    exact ⟨d :: ds, w2, .cons hc hr⟩

theorem Spec.Runs.length {α} {cs : List (EvalM α)} {w ds w'} (h : Runs cs w ds w') :
    ds.length = cs.length := by
  induction h with
  | nil => rfl
  | cons _ _ ih => simp [ih]

theorem Spec.Runs.det {α} {cs : List (EvalM α)} {w ds w' ds' w''} (h : Runs cs w ds w')
    (h' : Runs cs w ds' w'') : ds = ds' ∧ w' = w'' := by
  induction h generalizing ds' w'' with
  | nil => cases h'; exact ⟨rfl, rfl⟩
  | cons hc _ ih =>
    cases h' with
    | cons hc' hr' =>
      rw [hc] at hc'
      injection hc' with h1 h2
      injection h1 with h1
      subst h1 h2
      obtain ⟨rfl, rfl⟩ := ih hr'
      exact ⟨rfl, rfl⟩

theorem Spec.Runs.append {α} {cs cs' : List (EvalM α)} {w as w1 bs w2} (h : Runs cs w as w1)
    (h' : Runs cs' w1 bs w2) : Runs (cs ++ cs') w (as ++ bs) w2 := by
  induction h with
  | nil => exact h'
  | cons hc _ ih => exact .cons hc (ih h')

theorem Spec.Runs.split {α} {cs cs' : List (EvalM α)} {w xs w2} (h : Runs (cs ++ cs') w xs w2) :
    ∃ as bs w1, xs = as ++ bs ∧ Runs cs w as w1 ∧ Runs cs' w1 bs w2 := by
  induction cs generalizing w xs with
  | nil => exact ⟨[], xs, w, rfl, .nil w, h⟩
  | cons c cs ih =>
    cases h with
    | cons hc hr =>
      obtain ⟨as, bs, w1, rfl, h1, h2⟩ := ih hr
      exact ⟨_ :: as, bs, w1, rfl, .cons hc h1, h2⟩

/-- The split is determined by the number of computations. -/
theorem Spec.Runs.split_at {α} {cs cs' : List (EvalM α)} {w as bs w2} (h : Runs (cs ++ cs') w (as ++ bs) w2)
    (hl : as.length = cs.length) : ∃ w1, Runs cs w as w1 ∧ Runs cs' w1 bs w2 := by
  obtain ⟨as', bs', w1, he, h1, h2⟩ := h.split
  obtain ⟨rfl, rfl⟩ := List.append_inj he (by rw [hl, h1.length])
  exact ⟨w1, h1, h2⟩

theorem Spec.Fails.append_left {α} {cs cs' : List (EvalM α)} {w e w1} (h : Fails cs w e w1) :
    Fails (cs ++ cs') w e w1 := by
  induction h with
  | head hc => exact .head hc
  | tail hc _ ih => exact .tail hc ih

theorem Spec.Runs.fails_append {α} {cs cs' : List (EvalM α)} {w as w1 e w2} (h : Runs cs w as w1)
    (h' : Fails cs' w1 e w2) : Fails (cs ++ cs') w e w2 := by
  induction h with
  | nil => exact h'
  | cons hc _ ih => exact .tail hc (ih h')

theorem Spec.Fails.split {α} {cs cs' : List (EvalM α)} {w e w2} (h : Fails (cs ++ cs') w e w2) :
    Fails cs w e w2 ∨ ∃ as w1, Runs cs w as w1 ∧ Fails cs' w1 e w2 := by
  induction cs generalizing w with
  | nil => exact .inr ⟨[], w, .nil w, h⟩
  | cons c cs ih =>
    cases h with
    | head hc => exact .inl (.head hc)
    | tail hc hr =>
      rcases ih hr with h | ⟨as, w1, h1, h2⟩
      · exact .inl (.tail hc h)
      · exact .inr ⟨_ :: as, w1, .cons hc h1, h2⟩

/-- Either all computations succeed or some computation fails. -/
theorem runs_or_fails {α} (cs : List (EvalM α)) (w : World) :
    (∃ as w', Runs cs w as w') ∨ ∃ e w', Fails cs w e w' := by
  induction cs generalizing w with
  | nil => exact .inl ⟨[], w, .nil w⟩
  | cons c cs ih =>
    rcases hc : c w with ⟨e | a, w1⟩
    · exact .inr ⟨e, w1, .head hc⟩
    · rcases ih w1 with ⟨as, w2, h⟩ | ⟨e, w2, h⟩
      · exact .inl ⟨_, w2, .cons hc h⟩
      · exact .inr ⟨e, w2, .tail hc h⟩

theorem Spec.Runs.not_fails {α} {cs : List (EvalM α)} {w as w1 e w2} (h : Runs cs w as w1) :
    ¬ Fails cs w e w2 := by
  induction h with
  | nil => intro h; cases h
  | cons hc _ ih =>
    intro h
    cases h with
    | head hc' => rw [hc] at hc'; cases hc'
    | tail hc' h' =>
      rw [hc] at hc'
      injection hc' with h1 h2
      injection h1 with h1
      subst h1 h2
      exact ih h'

/-- Deny-overrides table with the loop's flags. -/
def denyTable (f : Flags) (es : List (Option Effect)) (ds : List Decision) : Decision :=
  if .deny ∈ ds then .deny
  else if f.potential = true ∨ (some .deny, .indeterminate) ∈ es.zip ds then .indeterminate
  else if f.other = true ∨ .permit ∈ ds then .permit
  else if f.error = true ∨ .indeterminate ∈ ds then .indeterminate
  else .notApplicable

/-- Permit-overrides table with the loop's flags. -/
def permitTable (f : Flags) (es : List (Option Effect)) (ds : List Decision) : Decision :=
  if .permit ∈ ds then .permit
  else if f.potential = true ∨ (some .permit, .indeterminate) ∈ es.zip ds then .indeterminate
  else if f.other = true ∨ .deny ∈ ds then .deny
  else if f.error = true ∨ .indeterminate ∈ ds then .indeterminate
  else .notApplicable

theorem denyOverridesRules_spec (cs : List RuleChild) (f : Flags) {w ds w2}
    (hr : Runs (cs.map RuleChild.run) w ds w2) (he : ∀ c ∈ cs, c.effect ≠ none) :
    ∃ w3, denyOverridesRules f cs w = (.ok (denyTable f (cs.map RuleChild.effect) ds), w3) ∧
      Runs ((cs.map RuleChild.run).take (evaluatedCount (· == .deny) ds)) w
        (ds.take (evaluatedCount (· == .deny) ds)) w3 := by
  induction cs generalizing f w ds with
  | nil =>
    cases hr
    refine ⟨_, ?_, .nil _⟩
    simp only [denyOverridesRules, denyTable]
    cases f.potential <;> cases f.other <;> cases f.error <;> simp
  | cons c cs ih =>
    simp only [List.map_cons] at hr
    cases hr with
    | @cons _ _ _ d w1 ds _ hc hr =>
      have he' : ∀ c ∈ cs, c.effect ≠ none := fun x hx => he x (by simp [hx])
      simp only [denyOverridesRules, run_bind_ok hc]
      cases d with
      | deny =>
        refine ⟨w1, by simp [denyTable], ?_⟩
        simp only [evaluatedCount]
        exact .cons hc (.nil _)
      | permit =>
        obtain ⟨w3, h1, h2⟩ := ih { f with other := true } hr he'
        refine ⟨w3, by simp [h1, denyTable], ?_⟩
        simp only [evaluatedCount]
        simpa [Nat.add_comm 1] using Runs.cons hc h2
      | notApplicable =>
        obtain ⟨w3, h1, h2⟩ := ih f hr he'
        refine ⟨w3, by simp [h1, denyTable], ?_⟩
        simp only [evaluatedCount]
        simpa [Nat.add_comm 1] using Runs.cons hc h2
      | indeterminate =>
        have hce := he c (by simp)
        match heq : c.effect with
        | none => exact absurd heq hce
        | some .deny =>
          obtain ⟨w3, h1, h2⟩ := ih { f with error := true, potential := true } hr he'
          refine ⟨w3, by simp [h1, denyTable, heq], ?_⟩
          simp only [evaluatedCount]
          simpa [Nat.add_comm 1] using Runs.cons hc h2
        | some .permit =>
          obtain ⟨w3, h1, h2⟩ := ih { f with error := true } hr he'
          refine ⟨w3, by simp [h1, denyTable, heq], ?_⟩
          simp only [evaluatedCount]
          simpa [Nat.add_comm 1] using Runs.cons hc h2

theorem permitOverridesRules_spec (cs : List RuleChild) (f : Flags) {w ds w2}
    (hr : Runs (cs.map RuleChild.run) w ds w2) (he : ∀ c ∈ cs, c.effect ≠ none) :
    ∃ w3, permitOverridesRules f cs w = (.ok (permitTable f (cs.map RuleChild.effect) ds), w3) ∧
      Runs ((cs.map RuleChild.run).take (evaluatedCount (· == .permit) ds)) w
        (ds.take (evaluatedCount (· == .permit) ds)) w3 := by
  induction cs generalizing f w ds with
  | nil =>
    cases hr
    refine ⟨_, ?_, .nil _⟩
    simp only [permitOverridesRules, permitTable]
    cases f.potential <;> cases f.other <;> cases f.error <;> simp
  | cons c cs ih =>
    simp only [List.map_cons] at hr
    cases hr with
    | @cons _ _ _ d w1 ds _ hc hr =>
      have he' : ∀ c ∈ cs, c.effect ≠ none := fun x hx => he x (by simp [hx])
      simp only [permitOverridesRules, run_bind_ok hc]
      cases d with
      | permit =>
        refine ⟨w1, by simp [permitTable], ?_⟩
        simp only [evaluatedCount]
        exact .cons hc (.nil _)
      | deny =>
        obtain ⟨w3, h1, h2⟩ := ih { f with other := true } hr he'
        refine ⟨w3, by simp [h1, permitTable], ?_⟩
        simp only [evaluatedCount]
        simpa [Nat.add_comm 1] using Runs.cons hc h2
      | notApplicable =>
        obtain ⟨w3, h1, h2⟩ := ih f hr he'
        refine ⟨w3, by simp [h1, permitTable], ?_⟩
        simp only [evaluatedCount]
        simpa [Nat.add_comm 1] using Runs.cons hc h2
      | indeterminate =>
        have hce := he c (by simp)
        match heq : c.effect with
        | none => exact absurd heq hce
        | some .permit =>
          obtain ⟨w3, h1, h2⟩ := ih { f with error := true, potential := true } hr he'
          refine ⟨w3, by simp [h1, permitTable, heq], ?_⟩
          simp only [evaluatedCount]
          simpa [Nat.add_comm 1] using Runs.cons hc h2
        | some .deny =>
          obtain ⟨w3, h1, h2⟩ := ih { f with error := true } hr he'
          refine ⟨w3, by simp [h1, permitTable, heq], ?_⟩
          simp only [evaluatedCount]
          simpa [Nat.add_comm 1] using Runs.cons hc h2

theorem firstApplicable_spec (cs : List (EvalM Decision)) {w ds w2} (hr : Runs cs w ds w2) :
    ∃ w3, Xacml.firstApplicable cs w = (.ok (Spec.firstApplicable ds), w3) ∧
      Runs (cs.take (evaluatedCount (· != .notApplicable) ds)) w
        (ds.take (evaluatedCount (· != .notApplicable) ds)) w3 := by
  induction hr with
  | nil w => exact ⟨w, rfl, .nil w⟩
  | @cons c cs w d w1 ds w2 hc _ ih =>
    obtain ⟨w3, h1, h2⟩ := ih
    simp only [Xacml.firstApplicable, run_bind_ok hc]
    cases d with
    | notApplicable =>
      refine ⟨w3, by simpa [Spec.firstApplicable] using h1, ?_⟩
      simp only [evaluatedCount]
      simpa [Nat.add_comm 1] using Runs.cons hc h2
    | permit => exact ⟨w1, by simp [Spec.firstApplicable], .cons hc (.nil _)⟩
    | deny => exact ⟨w1, by simp [Spec.firstApplicable], .cons hc (.nil _)⟩
    | indeterminate => exact ⟨w1, by simp [Spec.firstApplicable], .cons hc (.nil _)⟩

theorem denyOverridesPolicies_spec (cs : List (EvalM Decision)) (p : Bool) {w ds w2}
    (hr : Runs cs w ds w2) :
    ∃ w3, denyOverridesPolicies p cs w =
        (.ok (if .deny ∈ ds ∨ .indeterminate ∈ ds then .deny
              else if p = true ∨ .permit ∈ ds then .permit else .notApplicable), w3) ∧
      Runs (cs.take (evaluatedCount (fun d => d == .deny || d == .indeterminate) ds)) w
        (ds.take (evaluatedCount (fun d => d == .deny || d == .indeterminate) ds)) w3 := by
  induction hr generalizing p with
  | nil w =>
    refine ⟨w, ?_, .nil w⟩
    cases p <;> simp [denyOverridesPolicies]
  | @cons c cs w d w1 ds w2 hc _ ih =>
    simp only [denyOverridesPolicies, run_bind_ok hc]
    cases d with
    | notApplicable =>
      obtain ⟨w3, h1, h2⟩ := ih p
      refine ⟨w3, by simpa using h1, ?_⟩
      simp only [evaluatedCount]
      simpa [Nat.add_comm 1] using Runs.cons hc h2
    | permit =>
      obtain ⟨w3, h1, h2⟩ := ih true
      refine ⟨w3, by simpa using h1, ?_⟩
      simp only [evaluatedCount]
      simpa [Nat.add_comm 1] using Runs.cons hc h2
    | deny => exact ⟨w1, by simp, .cons hc (.nil _)⟩
    | indeterminate => exact ⟨w1, by simp, .cons hc (.nil _)⟩

theorem permitOverridesPolicies_spec (cs : List (EvalM Decision)) (e p : Bool) {w ds w2}
    (hr : Runs cs w ds w2) :
    ∃ w3, permitOverridesPolicies e p cs w =
        (.ok (if .permit ∈ ds then .permit
              else if p = true ∨ .deny ∈ ds then .deny
              else if e = true ∨ .indeterminate ∈ ds then .indeterminate else .notApplicable), w3) ∧
      Runs (cs.take (evaluatedCount (· == .permit) ds)) w
        (ds.take (evaluatedCount (· == .permit) ds)) w3 := by
  induction hr generalizing e p with
  | nil w =>
    refine ⟨w, ?_, .nil w⟩
    cases p <;> cases e <;> simp [permitOverridesPolicies]
  | @cons c cs w d w1 ds w2 hc _ ih =>
    simp only [permitOverridesPolicies, run_bind_ok hc]
    cases d with
    | notApplicable =>
      obtain ⟨w3, h1, h2⟩ := ih e p
      refine ⟨w3, by simpa using h1, ?_⟩
      simp only [evaluatedCount]
      simpa [Nat.add_comm 1] using Runs.cons hc h2
    | deny =>
      obtain ⟨w3, h1, h2⟩ := ih e true
      refine ⟨w3, by simpa using h1, ?_⟩
      simp only [evaluatedCount]
      simpa [Nat.add_comm 1] using Runs.cons hc h2
    | indeterminate =>
      obtain ⟨w3, h1, h2⟩ := ih true p
      refine ⟨w3, by simpa using h1, ?_⟩
      simp only [evaluatedCount]
      simpa [Nat.add_comm 1] using Runs.cons hc h2
    | permit => exact ⟨w1, by simp, .cons hc (.nil _)⟩

end Xacml
