import Verif.Spec.Mirror
import Verif.Spec.Samples
import Verif.Lemmas.Monad

/-!
# C108: Permit and Deny are treated alike
-/
namespace Xacml
open Spec

/-- The outcome of a computation with Permit and Deny exchanged; exceptions and the world stay. -/
private def flip (x : Except Exc Decision × World) : Except Exc Decision × World :=
  match x with
  | (.ok d, w) => (.ok (mirrorDecision d), w)
  | (.error e, w) => (.error e, w)

private def Mirrors (m m' : EvalM Decision) : Prop := ∀ w, m' w = flip (m w)

private theorem Mirrors.catchAll {m m'} (h : Mirrors m m') : Mirrors (Xacml.catchAll m) (Xacml.catchAll m') := by
  intro w
  unfold Xacml.catchAll
  rw [h w]
  rcases m w with ⟨x | x, w'⟩ <;> rfl

private theorem Mirrors.pure (d : Decision) : Mirrors (Pure.pure d) (Pure.pure (mirrorDecision d)) := fun _ => rfl

private theorem Mirrors.throw (e : Exc) : Mirrors (EvalM.throw e) (EvalM.throw e) := fun _ => rfl

private theorem Mirrors.bind {α} (m : EvalM α) {f f' : α → EvalM Decision} (h : ∀ a, Mirrors (f a) (f' a)) :
    Mirrors (m >>= f) (m >>= f') := by
  intro w
  rw [run_bind, run_bind]
  rcases m w with ⟨x | x, w'⟩
  · rfl
  · exact h x w'

/-- Related computations followed by continuations related on mirrored decisions. -/
private theorem Mirrors.seq {m m'} {f f' : Decision → EvalM Decision} (h : Mirrors m m')
    (hf : ∀ d, Mirrors (f d) (f' (mirrorDecision d))) : Mirrors (m >>= f) (m' >>= f') := by
  intro w
  rw [run_bind, run_bind, h w]
  rcases m w with ⟨x | x, w'⟩
  · rfl
  · exact hf x w'

private theorem mirror_rule (env : Env) (ctx : Ctx) (r : Rule) :
    Mirrors (r.evaluate env ctx) ((mirrorRule r).evaluate env ctx) := by
  refine Mirrors.catchAll ?_
  refine Mirrors.bind _ fun tm => ?_
  cases tm
  · exact Mirrors.pure .notApplicable
  · have key : ∀ s : PyVal, Mirrors
        (if s.truthy then (match r.effect with | some e => Pure.pure e.toDecision | none => EvalM.throw .attributeError)
          else Pure.pure .notApplicable)
        (if s.truthy then
          (match (mirrorRule r).effect with | some e => Pure.pure e.toDecision | none => EvalM.throw .attributeError)
          else Pure.pure .notApplicable) := by
      intro s
      cases s.truthy
      · exact Mirrors.pure .notApplicable
      · obtain ⟨_, _, e, _, _⟩ := r
        rcases e with _ | _ | _
        · exact Mirrors.throw _
        · exact Mirrors.pure .permit
        · exact Mirrors.pure .deny
    obtain ⟨_, _, e, _, c⟩ := r
    cases c with
    | none => exact Mirrors.bind _ key
    | some c => exact Mirrors.bind _ key

/-- Rules as combining algorithms see them, mirrored. -/
private def ChildMirror (c c' : RuleChild) : Prop :=
  c'.effect = c.effect.map mirrorEffect ∧ Mirrors c.run c'.run

private theorem mirror_deny {α} (g g' : α → RuleChild) (hg : ∀ a, ChildMirror (g a) (g' a)) (l : List α) (f : Flags) :
    Mirrors (denyOverridesRules f (l.map g)) (permitOverridesRules f (l.map g')) := by
  induction l generalizing f with
  | nil => obtain ⟨a, b, c⟩ := f; cases a <;> cases b <;> cases c <;> exact fun _ => rfl
  | cons x xs ih =>
    refine Mirrors.seq (hg x).2 fun d => ?_
    cases d with
    | deny => exact Mirrors.pure .deny
    | permit => exact ih _
    | notApplicable => exact ih _
    | indeterminate =>
      simp only [mirrorDecision, (hg x).1]
      rcases (g x).effect with _ | _ | _
      · exact Mirrors.throw _
      · exact ih _
      · exact ih _

private theorem mirror_permit {α} (g g' : α → RuleChild) (hg : ∀ a, ChildMirror (g a) (g' a)) (l : List α) (f : Flags) :
    Mirrors (permitOverridesRules f (l.map g)) (denyOverridesRules f (l.map g')) := by
  induction l generalizing f with
  | nil => obtain ⟨a, b, c⟩ := f; cases a <;> cases b <;> cases c <;> exact fun _ => rfl
  | cons x xs ih =>
    refine Mirrors.seq (hg x).2 fun d => ?_
    cases d with
    | permit => exact Mirrors.pure .permit
    | deny => exact ih _
    | notApplicable => exact ih _
    | indeterminate =>
      simp only [mirrorDecision, (hg x).1]
      rcases (g x).effect with _ | _ | _
      · exact Mirrors.throw _
      · exact ih _
      · exact ih _

private theorem mirror_first {α} (g g' : α → EvalM Decision) (l : List α) (hg : ∀ a ∈ l, Mirrors (g a) (g' a)) :
    Mirrors (Xacml.firstApplicable (l.map g)) (Xacml.firstApplicable (l.map g')) := by
  induction l with
  | nil => exact Mirrors.pure .notApplicable
  | cons x xs ih =>
    refine Mirrors.seq (hg x (List.mem_cons_self ..)) fun d => ?_
    cases d with
    | notApplicable => exact ih fun a h => hg a (List.mem_cons_of_mem _ h)
    | permit => exact Mirrors.pure .permit
    | deny => exact Mirrors.pure .deny
    | indeterminate => exact Mirrors.pure .indeterminate

private theorem mirror_combineRules (env : Env) (ctx : Ctx) (alg : Option Alg) (rules : List Rule) :
    Mirrors (Xacml.combineRules alg (rules.map (Rule.child env ctx)))
      (Xacml.combineRules (alg.map mirrorAlg) ((rules.map mirrorRule).map (Rule.child env ctx))) := by
  have hg : ∀ r : Rule, ChildMirror (Rule.child env ctx r) ((Rule.child env ctx ∘ mirrorRule) r) :=
    fun r => ⟨rfl, mirror_rule env ctx r⟩
  rw [List.map_map]
  rcases alg with _ | _ | _ | _
  · exact Mirrors.throw _
  · exact mirror_deny _ _ hg _ _
  · exact mirror_permit _ _ hg _ _
  · simp only [Xacml.combineRules, Option.map, mirrorAlg, List.map_map]
    exact mirror_first _ _ _ fun r _ => (hg r).2

/-- Continuations need to be related only on decisions the first computation can give. -/
private theorem Mirrors.seqSettled {m m'} {f f' : Decision → EvalM Decision} (h : Mirrors m m')
    (hs : ∀ w, (m w).1 ≠ .ok .indeterminate)
    (hf : ∀ d, d ≠ .indeterminate → Mirrors (f d) (f' (mirrorDecision d))) : Mirrors (m >>= f) (m' >>= f') := by
  intro w
  rw [run_bind, run_bind, h w]
  rcases hm : m w with ⟨x | x, w'⟩
  · rfl
  · exact hf x (fun e => hs w (by rw [hm, e])) w'

private theorem mirror_denyPolicies {α} (g g' : α → EvalM Decision) (l : List α)
    (hg : ∀ a ∈ l, Mirrors (g a) (g' a)) (hs : ∀ a ∈ l, ∀ w, (g a w).1 ≠ .ok .indeterminate) (b : Bool) :
    Mirrors (denyOverridesPolicies b (l.map g)) (permitOverridesPolicies false b (l.map g')) := by
  induction l generalizing b with
  | nil => cases b <;> exact fun _ => rfl
  | cons x xs ih =>
    have ih := ih (fun a h => hg a (List.mem_cons_of_mem _ h)) (fun a h => hs a (List.mem_cons_of_mem _ h))
    refine Mirrors.seqSettled (hg x (List.mem_cons_self ..)) (hs x (List.mem_cons_self ..)) fun d hd => ?_
    cases d with
    | deny => exact Mirrors.pure .deny
    | permit => exact ih _
    | notApplicable => exact ih _
    | indeterminate => exact absurd rfl hd

private theorem mirror_permitPolicies {α} (g g' : α → EvalM Decision) (l : List α)
    (hg : ∀ a ∈ l, Mirrors (g a) (g' a)) (hs : ∀ a ∈ l, ∀ w, (g a w).1 ≠ .ok .indeterminate) (b : Bool) :
    Mirrors (permitOverridesPolicies false b (l.map g)) (denyOverridesPolicies b (l.map g')) := by
  induction l generalizing b with
  | nil => cases b <;> exact fun _ => rfl
  | cons x xs ih =>
    have ih := ih (fun a h => hg a (List.mem_cons_of_mem _ h)) (fun a h => hs a (List.mem_cons_of_mem _ h))
    refine Mirrors.seqSettled (hg x (List.mem_cons_self ..)) (hs x (List.mem_cons_self ..)) fun d hd => ?_
    cases d with
    | permit => exact Mirrors.pure .permit
    | deny => exact ih _
    | notApplicable => exact ih _
    | indeterminate => exact absurd rfl hd

private theorem evaluators_map (env : Env) (ctx : Ctx) (ps : List PolicyNode) :
    PolicyNode.evaluators env ctx ps = ps.map (PolicyNode.evaluate env ctx) := by
  induction ps with
  | nil => simp [PolicyNode.evaluators]
  | cons p ps ih => simp [PolicyNode.evaluators, ih]

private theorem mirrorPolicies_map (ps : List PolicyNode) : mirrorPolicies ps = ps.map mirrorPolicy := by
  induction ps with
  | nil => simp [mirrorPolicies]
  | cons p ps ih => simp [mirrorPolicies, ih]

private theorem mirror_base (env : Env) (ctx : Ctx) (h : Header) {m m'} (hm : Mirrors m m') :
    Mirrors (policyBaseEvaluate env h ctx m) (policyBaseEvaluate env (mirrorHeader h) ctx m') := by
  refine Mirrors.catchAll (Mirrors.bind _ fun tm => ?_)
  cases tm
  · exact Mirrors.pure .notApplicable
  · exact hm

private theorem mirror_policy (env : Env) (ctx : Ctx) (p : PolicyNode) (hp : OverridesSettled env ctx p) :
    Mirrors (p.evaluate env ctx) ((mirrorPolicy p).evaluate env ctx) := by
  induction hp with
  | policy h rules =>
    simp only [mirrorPolicy, PolicyNode.evaluate]
    exact mirror_base env ctx h (mirror_combineRules env ctx h.alg rules)
  | policySet h ps _ hs ih =>
    simp only [mirrorPolicy, PolicyNode.evaluate, evaluators_map, mirrorPolicies_map, List.map_map]
    refine mirror_base env ctx h ?_
    simp only [mirrorHeader]
    generalize h.alg = alg at hs
    rcases alg with _ | _ | _ | _
    · exact Mirrors.throw _
    · exact mirror_denyPolicies _ _ ps ih (hs (.inl rfl)) false
    · exact mirror_permitPolicies _ _ ps ih (hs (.inr rfl)) false
    · exact mirror_first _ _ ps ih

/-- **C108 (rules).** For every rule, request and history, the rule with the opposite effect
gives the opposite decision and leaves the same log of questions to the context handler. -/
theorem C108_rule (env : Env) (ctx : Ctx) (r : Rule) (w w' : World) (d : Decision)
    (h : r.evaluate env ctx w = (.ok d, w')) :
    (mirrorRule r).evaluate env ctx w = (.ok (mirrorDecision d), w') := by
  rw [mirror_rule env ctx r w, h]; rfl

/-- **C108 (policies).** For every policy, whatever its rules and its combining algorithm, the
response to a request for the mirror image is the mirrored response. -/
theorem C108_policy (env : Env) (ctx : Ctx) (h : Header) (rules : List Rule) (w w' : World) (resp : Response)
    (hr : pdpEvaluate env (some (.policy h rules)) ctx w = (.ok resp, w')) :
    pdpEvaluate env (some (mirrorPolicy (.policy h rules))) ctx w = (.ok (mirrorResponse resp), w') := by
  have := mirror_policy env ctx _ (.policy h rules) w
  revert hr
  simp only [pdpEvaluate, PolicyNode.evaluateResponse, this]
  rcases (PolicyNode.policy h rules).evaluate env ctx w with ⟨e | d, w1⟩
  · simp only [flip]
    split
    · rintro ⟨⟩; rfl
    · rintro ⟨⟩
  · rintro ⟨⟩; rfl

/-- **C108, partial.** The full statement is: the response for the mirror image of every policy
or policy set is the mirrored response. It holds if no policy set combining by deny-overrides or
permit-overrides has a member that is Indeterminate for the request. What is missing: such
members, for which it is false (`C108_violated`). -/
theorem C108_partial (env : Env) (ctx : Ctx) (p : PolicyNode) (hp : OverridesSettled env ctx p) (w w' : World)
    (resp : Response) (hr : pdpEvaluate env (some p) ctx w = (.ok resp, w')) :
    pdpEvaluate env (some (mirrorPolicy p)) ctx w = (.ok (mirrorResponse resp), w') := by
  have := mirror_policy env ctx p hp w
  revert hr
  simp only [pdpEvaluate, PolicyNode.evaluateResponse, this]
  rcases p.evaluate env ctx w with ⟨e | d, w1⟩
  · simp only [flip]
    split
    · rintro ⟨⟩; rfl
    · rintro ⟨⟩
  · rintro ⟨⟩; rfl

/-- Mirroring twice gives back the policy. -/
theorem C108_twice (p : PolicyNode) : mirrorPolicy (mirrorPolicy p) = p := by
  have hh : ∀ h : Header, mirrorHeader (mirrorHeader h) = h := by
    rintro ⟨_, _, _, _, _, a, _, _⟩
    rcases a with _ | _ | _ | _ <;> rfl
  have hr : ∀ r : Rule, mirrorRule (mirrorRule r) = r := by
    rintro ⟨_, _, e, _, _⟩
    rcases e with _ | _ | _ <;> rfl
  have hl : ∀ rs : List Rule, (rs.map mirrorRule).map mirrorRule = rs := by
    intro rs
    induction rs with
    | nil => rfl
    | cons r rs ih => rw [List.map_cons, List.map_cons, hr, ih]
  refine PolicyNode.rec (motive_1 := fun p => mirrorPolicy (mirrorPolicy p) = p)
    (motive_2 := fun ps => mirrorPolicies (mirrorPolicies ps) = ps) ?_ ?_ ?_ ?_ p
  · intro h rules; simp only [mirrorPolicy, hh, hl]
  · intro h ps ih; simp only [mirrorPolicy, hh, ih]
  · simp only [mirrorPolicies]
  · intro p ps h1 h2; simp only [mirrorPolicies, h1, h2]

section NonVacuity
open Samples

/-- A permit-overrides policy set whose only member is Indeterminate. -/
def Samples.brokenSet : PolicyNode :=
  .policySet (hdr .permitOverrides) [.policy (hdr .firstApplicable) [failing .permit]]

/-- **C108, violated.** The policy set is Indeterminate, so its mirror image should be as well,
but it decides Deny. -/
theorem C108_violated :
    (brokenSet.evaluate env ctx w0).1 = .ok .indeterminate ∧
    ((mirrorPolicy brokenSet).evaluate env ctx w0).1 = .ok .deny := ⟨rfl, rfl⟩

/-- A policy with an error among its rules. -/
def Samples.mixedPolicy : PolicyNode :=
  .policy (hdr .denyOverrides) [roleRule .permit "admin", failing .permit, roleRule .deny "guest"]

/-- A first-applicable set with the policy above and a nested override set. -/
def Samples.mixedSet : PolicyNode :=
  .policySet (hdr .firstApplicable)
    [.policySet (hdr .denyOverrides) [.policy (hdr .firstApplicable (some (roleTarget "guest"))) [always .deny]],
     mixedPolicy]

example : ((roleRule .permit "admin").evaluate env ctx w0) = (.ok .permit, w0) ∧
    (mirrorRule (roleRule .permit "admin")).evaluate env ctx w0 = (.ok .deny, w0) := ⟨rfl, rfl⟩

example : (mixedPolicy.evaluate env ctx w0).1 = .ok .permit ∧
    ((mirrorPolicy mixedPolicy).evaluate env ctx w0).1 = .ok .deny := ⟨rfl, rfl⟩

/-- The hypothesis of `C108_partial` holds of `mixedSet`, and its response is a Permit. -/
example : OverridesSettled env ctx mixedSet ∧
    (pdpEvaluate env (some mixedSet) ctx w0).1 = .ok { results := [{ decision := .permit, status := .ok }] } ∧
    (pdpEvaluate env (some (mirrorPolicy mixedSet)) ctx w0).1
      = .ok { results := [{ decision := .deny, status := .ok }] } := by
  refine ⟨.policySet _ _ ?_ ?_, rfl, rfl⟩
  · intro p hp
    simp only [List.mem_cons, List.not_mem_nil, or_false] at hp
    rcases hp with rfl | rfl
    · refine .policySet _ _ ?_ ?_
      · intro p hp
        simp only [List.mem_cons, List.not_mem_nil, or_false] at hp
        subst hp
        exact .policy _ _
      · intro _ p hp w
        simp only [List.mem_cons, List.not_mem_nil, or_false] at hp
        subst hp
        rw [show (PolicyNode.evaluate env ctx
          (.policy (hdr .firstApplicable (some (roleTarget "guest"))) [always .deny]) w).1 = .ok .notApplicable from rfl]
        intro h; cases h
    · exact .policy _ _
  · rintro (h | h) <;> cases h

end NonVacuity
end Xacml
