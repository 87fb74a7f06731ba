import Verif.Model.Policy

/-! Helper lemmas about the evaluation monad. -/
namespace Xacml

@[simp] theorem run_pure {α} (a : α) (w : World) : (pure a : EvalM α) w = (.ok a, w) := rfl
@[simp] theorem run_throw {α} (e : Exc) (w : World) : (EvalM.throw e : EvalM α) w = (.error e, w) := rfl
@[simp] theorem run_ofExcept {α} (x : Except Exc α) (w : World) : EvalM.ofExcept x w = (x, w) := rfl

theorem run_bind {α β} (m : EvalM α) (f : α → EvalM β) (w : World) :
    (m >>= f) w = match m w with
      | (.ok a, w') => f a w'
      | (.error e, w') => (.error e, w') := rfl

theorem run_bind_ok {α β} {m : EvalM α} {f : α → EvalM β} {w w' : World} {a : α}
    (h : m w = (.ok a, w')) : (m >>= f) w = f a w' := by
  rw [run_bind, h]

theorem run_bind_error {α β} {m : EvalM α} {f : α → EvalM β} {w w' : World} {e : Exc}
    (h : m w = (.error e, w')) : (m >>= f) w = (.error e, w') := by
  rw [run_bind, h]

theorem run_bind_eq_ok {α β} {m : EvalM α} {f : α → EvalM β} {w w' : World} {b : β} :
    (m >>= f) w = (.ok b, w') ↔ ∃ a w1, m w = (.ok a, w1) ∧ f a w1 = (.ok b, w') := by
  rw [run_bind]
  constructor
  · intro h
    split at h
    · rename_i a w1 hm; exact ⟨a, w1, hm, h⟩
    · cases h
  · rintro ⟨a, w1, hm, hf⟩
    rw [hm]; exact hf

theorem run_bind_eq_error {α β} {m : EvalM α} {f : α → EvalM β} {w w' : World} {e : Exc} :
    (m >>= f) w = (.error e, w') ↔
      m w = (.error e, w') ∨ ∃ a w1, m w = (.ok a, w1) ∧ f a w1 = (.error e, w') := by
  rw [run_bind]
  constructor
  · intro h
    split at h
    · rename_i a w1 hm; exact .inr ⟨a, w1, hm, h⟩
    · rename_i e' w1 hm
      left; rw [hm]; simp at h; simp [h]
  · rintro (h | ⟨a, w1, hm, hf⟩)
    · rw [h]
    · rw [hm]; exact hf

theorem bind_assoc' {α β γ} (m : EvalM α) (f : α → EvalM β) (g : β → EvalM γ) :
    ((m >>= f) >>= g) = (m >>= fun a => f a >>= g) := by
  funext w
  simp only [run_bind]
  rcases m w with ⟨_ | _, _⟩ <;> rfl

/-- `catchAll` never raises. -/
theorem catchAll_ok (m : EvalM Decision) (w : World) : ∃ d w', catchAll m w = (.ok d, w') := by
  unfold catchAll
  split <;> exact ⟨_, _, rfl⟩

theorem rule_evaluate_ok (env : Env) (r : Rule) (ctx : Ctx) (w : World) :
    ∃ d w', r.evaluate env ctx w = (.ok d, w') := catchAll_ok _ w

theorem policy_evaluate_ok (env : Env) (p : PolicyNode) (ctx : Ctx) (w : World) :
    ∃ d w', p.evaluate env ctx w = (.ok d, w') := by
  cases p <;> (unfold PolicyNode.evaluate policyBaseEvaluate; exact catchAll_ok _ w)

theorem evaluators_eq_map (env : Env) (ctx : Ctx) (ps : List PolicyNode) :
    PolicyNode.evaluators env ctx ps = ps.map (PolicyNode.evaluate env ctx) := by
  induction ps with
  | nil => simp [PolicyNode.evaluators]
  | cons p ps ih => simp [PolicyNode.evaluators, ih]

end Xacml
