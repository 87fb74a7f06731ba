import Verif.Lemmas.Semantics
import Verif.Spec.Samples

/-!
# C64: the evaluator computes the big-step semantics of `Verif.Spec.Semantics`
-/
namespace Xacml
open Spec

/-- C64, functions: after any history a function returns a value exactly when the semantics gives it that
value, and raises an exception exactly when the semantics gives it none. -/
theorem C64_function (env : Env) (f : Func) (args : List PyVal) {w : World} (hw : History env.re w) (x : PyVal) :
    (f.evaluate env args w).1 = .ok x ↔ FuncMeans env.re f args x := by
  rw [(func_stable env f args).den (history_coh hw), func_den]

/-- C64, expressions. -/
theorem C64_expression (env : Env) (r : Request) (hs : StatelessPip (some r)) (e : Expr) {w : World}
    (hw : History env.re w) (x : PyVal) : (e.evaluate env (some r) w).1 = .ok x ↔ Means env r e x := by
  rw [(expr_stable env hs e).den (history_coh hw), expr_den env r hs]

/-- C64, targets. -/
theorem C64_target (env : Env) (r : Request) (hs : StatelessPip (some r)) (t : Option Target) {w : World}
    (hw : History env.re w) (b : Bool) : (targetMatch env t (some r) w).1 = .ok b ↔ Applies env r t b := by
  rw [(target_stable env hs t).den (history_coh hw), target_den env r hs]

/-- C64, rules: the decision of a rule with an effect is the one the semantics gives it. -/
theorem C64_rule (env : Env) (r : Request) (hs : StatelessPip (some r)) (rule : Rule) (he : rule.effect ≠ none)
    {w : World} (hw : History env.re w) (d : Decision) :
    (rule.evaluate env (some r) w).1 = .ok d ↔ RuleMeans env r rule d := by
  rw [(rule_stable env hs rule).den (history_coh hw), rule_den env r hs rule he]

/-- C64: after any history, the PDP answers a request with one result, status ok and the one decision that
the semantics gives the policy. -/
theorem C64_pdp (env : Env) (r : Request) (hs : StatelessPip (some r)) (p : PolicyNode) (hc : Complete p)
    {w : World} (hw : History env.re w) :
    ∃ d, (∀ d', PolicyMeans env r p d' ↔ d' = d) ∧
      (pdpEvaluate env (some p) (some r) w).1 = .ok { results := [{ decision := d, status := .ok }] } := by
  obtain ⟨d, w', hd⟩ := policy_evaluate_ok env p (some r) w
  have hden := (policy_stable env hs p).den (history_coh hw)
  rw [hd] at hden
  refine ⟨d, fun d' => ?_, ?_⟩
  · rw [← policy_den env r hs p hc, ← hden]
    constructor
    · intro h; injection h with h; exact h.symm
    · rintro rfl; rfl
  · simp [pdpEvaluate, PolicyNode.evaluateResponse, hd, Result.createInitialised]

/-! Non-vacuity: a policy set whose derivation uses a target that applies, one that fails, and a combining
algorithm at both levels. -/

section
open Samples

/-- A set of one policy that permits administrators; its second rule fails. -/
def semanticsSample : PolicyNode :=
  .policySet (hdr .denyOverrides) [.policy (hdr .permitOverrides) [roleRule .permit "admin", failing .deny]]

example : Complete semanticsSample := by
  simp [semanticsSample, Complete, AllComplete, hdr, roleRule, failing]

example : StatelessPip (some req) := by
  intro r hr pip hp
  injection hr with hr
  subst hr
  cases hp

private theorem sample_designated :
    designated roleDes [roleAttr ["admin", "staff"]] = [str "admin", str "staff"] := by
  simp [designated, roleDes, roleAttr, AttrSelected, str]

private theorem sample_role : Applies env req (some (roleTarget "admin")) true := by
  refine ⟨[[true]], [], [], [], ⟨_, _, rfl, ⟨_, _, rfl, ?_, rfl⟩, rfl⟩, rfl, rfl, rfl, ?_⟩
  · refine ⟨[str "admin", str "staff"], [.native (.bool true), .native (.bool false)],
      .inl ⟨_, _, rfl, ?_⟩, ?_, ?_⟩
    · have h : DesignatorMeans env req .subject roleDes (designated roleDes [roleAttr ["admin", "staff"]]) := by
        refine .request (fun _ => rfl) rfl ?_ ?_
        · intro v hv
          rw [sample_designated] at hv
          simp only [List.mem_cons, List.not_mem_nil, or_false] at hv
          rcases hv with rfl | rfl <;> exact ⟨_, _, rfl, rfl, rfl⟩
        · rw [sample_designated]; simp
      rwa [sample_designated] at h
    · refine ⟨_, _, rfl, ⟨_, rfl, .equal rfl rfl ?_, ?_⟩, _, _, rfl, ⟨_, rfl, .equal rfl rfl ?_, ?_⟩, rfl⟩
      · exact ⟨fun _ => .str _, fun _ => rfl⟩
      · intro h; cases h
      · constructor
        · intro h; cases h
        · intro h
          have h : SameValue (some (.str "admin")) (some (.str "staff")) := h
          generalize ha : some (Native.str "admin") = a at h
          generalize hb : some (Native.str "staff") = b at h
          cases h with
          | str s => cases ha; simp at hb
          | number h => cases ha; cases h
          | _ => cases ha
      · intro h; cases h
    · simp [← truthy_iff, PyVal.truthy, Native.truthy]
  · simp [SectionMatches]

private theorem sample_fails : ∀ b, ¬ Applies env req (some errTarget) b := by
  rintro b ⟨ss, rs, as, es, ⟨_, _, _, ⟨_, _, _, ⟨vs, xs, (⟨cat, d, hd, hm⟩ | ⟨h, _⟩), _⟩, _⟩, _⟩, _⟩
  · injection hd with hd
    injection hd with h1 h2
    subst h1 h2
    cases hm with
    | request h1 h2 h3 h4 =>
      injection h2 with h2
      subst h2
      exact h4 rfl rfl
    | pip h => cases h
  · cases h

example : PolicyMeans env req semanticsSample .permit := by
  refine .policies (ds := [.permit]) (alg := .denyOverrides) (show true = true from rfl) rfl (.cons ?_ .nil)
  exact .rules (ds := [.permit, .indeterminate]) (alg := .permitOverrides) (show true = true from rfl) rfl
    ⟨_, _, rfl, .effect (e := .permit) sample_role (show true = true from rfl) rfl, _, _, rfl, .targetFails sample_fails, rfl⟩

example : (pdpEvaluate env (some semanticsSample) (some req) w0).1
    = .ok { results := [{ decision := .permit, status := .ok }] } := rfl

end

end Xacml
