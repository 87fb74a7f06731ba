import Verif.Props.Defaults
import Verif.Spec.Excerpts

/-!
# C118: a policy can be cut down to what concerns some requests
-/
namespace Xacml
open Spec

variable {env : Env} {r : Request} {Q : Request → Prop}

/-- Further decisions that are all NotApplicable. -/
private inductive Padded : List (Option Effect) → List Decision → List (Option Effect) → List Decision → Prop
  | nil : Padded [] [] [] []
  | keep {e d es ds es' ds'} : Padded es ds es' ds' → Padded (e :: es) (d :: ds) (e :: es') (d :: ds')
  | drop {e es ds es' ds'} : Padded es ds es' ds' → Padded (e :: es) (.notApplicable :: ds) es' ds'

private theorem padded_mem {es es' : List (Option Effect)} {ds ds' : List Decision} (h : Padded es ds es' ds') {d : Decision}
    (hd : d ≠ .notApplicable) : d ∈ ds ↔ d ∈ ds' := by
  induction h with
  | nil => rfl
  | keep _ ih => simp only [List.mem_cons, ih]
  | drop _ ih => simp only [List.mem_cons, ih, hd, false_or]

private theorem padded_zip {es es' : List (Option Effect)} {ds ds' : List Decision} (h : Padded es ds es' ds') {d : Decision}
    {e : Option Effect} (hd : d ≠ .notApplicable) : (e, d) ∈ es.zip ds ↔ (e, d) ∈ es'.zip ds' := by
  induction h with
  | nil => rfl
  | keep _ ih => simp only [List.zip_cons_cons, List.mem_cons, ih]
  | drop _ ih => simp only [List.zip_cons_cons, List.mem_cons, ih, Prod.mk.injEq, hd, and_false, false_or]

private theorem padded_first {es es' : List (Option Effect)} {ds ds' : List Decision} (h : Padded es ds es' ds') :
    Spec.firstApplicable ds = Spec.firstApplicable ds' := by
  unfold Spec.firstApplicable
  congr 1
  induction h with
  | nil => rfl
  | keep _ ih => simp only [List.find?_cons, ih]
  | drop _ ih => simpa [List.find?_cons] using ih

private theorem padded_rules {es es' : List (Option Effect)} {ds ds' : List Decision} (h : Padded es ds es' ds') (alg : Alg) :
    Spec.combineRules alg es ds = Spec.combineRules alg es' ds' := by
  have m := fun d hd => @padded_mem _ _ _ _ h d hd
  have z := fun e d hd => @padded_zip _ _ _ _ h d e hd
  cases alg with
  | firstApplicable => exact padded_first h
  | denyOverrides =>
    simp only [Spec.combineRules, ruleDenyOverrides, m .deny (by decide), m .permit (by decide), m .indeterminate (by decide),
      z (some .deny) .indeterminate (by decide)]
  | permitOverrides =>
    simp only [Spec.combineRules, rulePermitOverrides, m .deny (by decide), m .permit (by decide),
      m .indeterminate (by decide), z (some .permit) .indeterminate (by decide)]

private theorem padded_policies {es es' : List (Option Effect)} {ds ds' : List Decision} (h : Padded es ds es' ds') (alg : Alg) :
    Spec.combinePolicies alg ds = Spec.combinePolicies alg ds' := by
  have m := fun d hd => @padded_mem _ _ _ _ h d hd
  cases alg with
  | firstApplicable => exact padded_first h
  | denyOverrides =>
    simp only [Spec.combinePolicies, policyDenyOverrides, m .deny (by decide), m .permit (by decide),
      m .indeterminate (by decide)]
  | permitOverrides =>
    simp only [Spec.combinePolicies, policyPermitOverrides, m .deny (by decide), m .permit (by decide),
      m .indeterminate (by decide)]

private theorem rules_excerpt (hq : Q r) {rs rs' : List Rule} (h : RulesExcerpt env Q rs rs') {ds' : List Decision}
    (hd : Each (RuleMeans env r) rs' ds') :
    ∃ ds, Each (RuleMeans env r) rs ds ∧ Padded (rs.map (·.effect)) ds (rs'.map (·.effect)) ds' := by
  induction h generalizing ds' with
  | nil => cases hd; exact ⟨[], rfl, .nil⟩
  | keep _ ih =>
    obtain ⟨x, ds1, rfl, h1, h2⟩ := hd
    obtain ⟨ds, g1, g2⟩ := ih h2
    exact ⟨x :: ds, ⟨x, ds, rfl, h1, g1⟩, .keep g2⟩
  | drop hn _ ih =>
    obtain ⟨ds, g1, g2⟩ := ih hd
    exact ⟨.notApplicable :: ds, ⟨_, ds, rfl, hn r hq, g1⟩, .drop g2⟩

mutual
private theorem excerpt_means (hq : Q r) : {p p' : PolicyNode} → Excerpt env Q p p' → ∀ {d}, PolicyMeans env r p' d →
    PolicyMeans env r p d
  | _, _, .rules h, _, hd => by
    cases hd with
    | rules g1 g2 g3 =>
      obtain ⟨ds, k1, k2⟩ := rules_excerpt hq h g3
      rw [← padded_rules k2]
      exact .rules g1 g2 k1
    | policyTargetFalse g => exact .policyTargetFalse g
    | policyTargetFails g => exact .policyTargetFails g
  | _, _, .policies h, _, hd => by
    cases hd with
    | policies g1 g2 g3 =>
      obtain ⟨ds, es, es', k1, k2⟩ := excerpts_mean hq h g3
      rw [← padded_policies k2]
      exact .policies g1 g2 k1
    | setTargetFalse g => exact .setTargetFalse g
    | setTargetFails g => exact .setTargetFails g
private theorem excerpts_mean (hq : Q r) : {ps ps' : List PolicyNode} → PoliciesExcerpt env Q ps ps' → ∀ {ds'},
    PoliciesMean env r ps' ds' → ∃ ds es es', PoliciesMean env r ps ds ∧ Padded es ds es' ds'
  | _, _, .nil, _, h => by cases h; exact ⟨[], [], [], .nil, .nil⟩
  | _, _, .keep h1 h2, _, h => by
    cases h with
    | cons g1 g2 =>
      obtain ⟨ds, es, es', k1, k2⟩ := excerpts_mean hq h2 g2
      exact ⟨_, none :: es, none :: es', .cons (excerpt_means hq h1 g1) k1, .keep k2⟩
  | _, _, .drop hn h2, _, h => by
    obtain ⟨ds, es, es', k1, k2⟩ := excerpts_mean hq h2 h
    exact ⟨_, none :: es, es', .cons (hn r hq) k1, .drop k2⟩
end

private theorem rules_kept {rs rs' : List Rule} (h : RulesExcerpt env Q rs rs') : ∀ x ∈ rs', x ∈ rs := by
  induction h with
  | nil => exact fun _ h => h
  | keep _ ih =>
    intro x hx
    rcases List.mem_cons.1 hx with rfl | hx
    · exact List.mem_cons_self ..
    · exact List.mem_cons_of_mem _ (ih x hx)
  | drop _ _ ih => exact fun x hx => List.mem_cons_of_mem _ (ih x hx)

mutual
private theorem excerpt_complete : {p p' : PolicyNode} → Excerpt env Q p p' → Complete p → Complete p'
  | _, _, .rules h, hc => by
    unfold Complete at hc ⊢
    exact ⟨hc.1, fun x hx => hc.2 x (rules_kept h x hx)⟩
  | _, _, .policies h, hc => by
    unfold Complete at hc ⊢
    exact ⟨hc.1, excerpts_complete h hc.2⟩
private theorem excerpts_complete : {ps ps' : List PolicyNode} → PoliciesExcerpt env Q ps ps' → AllComplete ps → AllComplete ps'
  | _, _, .nil, hc => hc
  | _, _, .keep h1 h2, hc => by
    unfold AllComplete at hc ⊢
    exact ⟨excerpt_complete h1 hc.1, excerpts_complete h2 hc.2⟩
  | _, _, .drop _ h2, hc => by
    unfold AllComplete at hc
    exact excerpts_complete h2 hc.2
end

/-- **C118.** A policy without rules and policies, anywhere within it, that are not applicable to any of the requests of
interest answers these requests as the whole policy does. -/
theorem C118_excerpt (env : Env) (Q : Request → Prop) (p p' : PolicyNode) (h : Excerpt env Q p p') (hc : Complete p)
    (r : Request) (hq : Q r) (hs : StatelessPip (some r)) {w w' : World} (hw : History env.re w) (hw' : History env.re w') :
    (pdpEvaluate env (some p') (some r) w').1 = (pdpEvaluate env (some p) (some r) w).1 := by
  obtain ⟨d, hd, h1⟩ := C64_pdp env r hs p hc hw
  obtain ⟨d', hd', h2⟩ := C64_pdp env r hs p' (excerpt_complete h hc) hw'
  rw [h1, h2, (hd d').1 (excerpt_means hq h ((hd' d').2 rfl))]

private theorem excerpt_same (p : PolicyNode) : Excerpt env Q p p := by
  have hr : ∀ rs : List Rule, RulesExcerpt env Q rs rs := fun rs => by
    induction rs with
    | nil => exact .nil
    | cons _ _ ih => exact .keep ih
  induction p using PolicyNode.rec (motive_2 := fun ps => PoliciesExcerpt env Q ps ps) with
  | policy h rs => exact .rules (hr rs)
  | policySet h ps ih => exact .policies ih
  | nil => exact .nil
  | cons p ps h1 h2 => exact .keep h1 h2

private theorem misses {p : PolicyNode} (h : Applies env r (targetOf p) false) : PolicyMeans env r p .notApplicable := by
  cases p with
  | policy _ _ => exact .policyTargetFalse h
  | policySet _ _ => exact .setTargetFalse h

/-- **C118, selecting policies by their targets.** A policy set can be evaluated with any selection of its policies that
leaves out only policies whose targets do not match the request. -/
theorem C118_select (env : Env) (h : Header) (ps : List PolicyNode) (keep : PolicyNode → Bool) (r : Request)
    (hk : ∀ p ∈ ps, keep p = false → Applies env r (targetOf p) false) (hc : Complete (.policySet h ps))
    (hs : StatelessPip (some r)) {w w' : World} (hw : History env.re w) (hw' : History env.re w') :
    (pdpEvaluate env (some (.policySet h (ps.filter keep))) (some r) w').1 =
      (pdpEvaluate env (some (.policySet h ps)) (some r) w).1 := by
  refine C118_excerpt env (· = r) _ _ (.policies ?_) hc r rfl hs hw hw'
  clear hc
  induction ps with
  | nil => exact .nil
  | cons p ps ih =>
    have ih := ih fun q hq => hk q (List.mem_cons_of_mem _ hq)
    rw [List.filter_cons]
    split
    · exact .keep (excerpt_same p) ih
    · next hn =>
      refine .drop ?_ ih
      rintro _ rfl
      exact misses (hk p (List.mem_cons_self ..) (by simpa using hn))

section NonVacuity
open Samples

private def other : Request := { req with data := { data with subjects := [{ category := none, attributes := [roleAttr ["staff"]] }] } }

private theorem plain {x : Request} (h : x.ctxHandler = none) : StatelessPip (some x) := by
  intro _ hr pip hp; injection hr with hr; subst hr; rw [h] at hp; cases hp

private theorem guest_misses {x : Request} (h : x = req ∨ x = other) : Applies Samples.env x (some (roleTarget "guest")) false := by
  rcases h with rfl | rfl
  · exact (C64_target _ _ (plain rfl) _ .start false).1 rfl
  · exact (C64_target _ _ (plain rfl) _ .start false).1 rfl

/-- The hypotheses of `C118_excerpt` hold of a policy set that loses a policy and a rule for guests, and of two requests
of which one is permitted and the other is not. -/
example :
    let p := PolicyNode.policySet (hdr .denyOverrides) [.policy (hdr .denyOverrides (some (roleTarget "guest"))) [always .deny],
      .policy (hdr .firstApplicable) [roleRule .deny "guest", roleRule .permit "admin"]]
    let p' := PolicyNode.policySet (hdr .denyOverrides) [.policy (hdr .firstApplicable) [roleRule .permit "admin"]]
    let Q := fun x => x = req ∨ x = other
    Excerpt Samples.env Q p p' ∧ Complete p ∧ (∀ x, Q x → StatelessPip (some x)) ∧ History Samples.env.re start ∧
      (pdpEvaluate Samples.env (some p) (some req) start).1 = .ok { results := [{ decision := .permit, status := .ok }] } ∧
      (pdpEvaluate Samples.env (some p) (some other) start).1 =
        .ok { results := [{ decision := .notApplicable, status := .ok }] } := by
  refine ⟨.policies (.drop (fun x hx => .policyTargetFalse (guest_misses hx))
    (.keep (.rules (.drop (fun x hx => .targetFalse (guest_misses hx)) (.keep .nil))) .nil)), ?_, ?_, .start, rfl, rfl⟩
  · simp [Complete, AllComplete, hdr, roleRule, always]
  · rintro x (rfl | rfl)
    · exact plain rfl
    · exact plain rfl

/-- The hypothesis of `C118_select` holds of the selection of the policies that are not for guests. -/
example :
    let guests := PolicyNode.policy (hdr .denyOverrides (some (roleTarget "guest"))) [always .deny]
    let admins := PolicyNode.policy (hdr .denyOverrides (some (roleTarget "admin"))) [always .permit]
    let keep := fun p => match p with | PolicyNode.policy _ [rule] => decide (rule.effect = some .permit) | _ => true
    (∀ p ∈ [guests, admins], keep p = false → Applies Samples.env req (targetOf p) false) ∧
      [guests, admins].filter keep = [admins] := by
  refine ⟨?_, rfl⟩
  intro p hp hk
  simp only [List.mem_cons, List.not_mem_nil, or_false] at hp
  rcases hp with rfl | rfl
  · exact guest_misses (.inl rfl)
  · exact absurd hk (by decide)

/-- A policy whose target fails must not be left out. -/
theorem C118_failing_counts :
    (pdpEvaluate Samples.env (some (.policySet (hdr .denyOverrides)
      [.policy (hdr .denyOverrides (some errTarget)) [always .permit], .policy (hdr .denyOverrides) [always .permit]]))
      (some req) start).1 = .ok { results := [{ decision := .deny, status := .ok }] } ∧
    (pdpEvaluate Samples.env (some (.policySet (hdr .denyOverrides) [.policy (hdr .denyOverrides) [always .permit]]))
      (some req) start).1 = .ok { results := [{ decision := .permit, status := .ok }] } := ⟨rfl, rfl⟩

end NonVacuity
end Xacml
