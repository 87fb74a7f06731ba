import Verif.Props.Defaults
import Verif.Spec.DeadRules

/-!
# C117: rules and policies that can have no influence can be dropped
-/
namespace Xacml
open Spec

variable {env : Env} {r : Request}

private theorem prevails_rules {e : Effect} {alg : Alg} (h : Prevails e alg) {es : List (Option Effect)} {ds : List Decision}
    (hd : effectDecision e ∈ ds) : Spec.combineRules alg es ds = effectDecision e := by
  rcases h with ⟨rfl, rfl⟩ | ⟨rfl, rfl⟩
  · exact if_pos hd
  · exact if_pos hd

private theorem prevails_policies {e : Effect} {alg : Alg} (h : Prevails e alg) {ds : List Decision}
    (hd : effectDecision e ∈ ds) : Spec.combinePolicies alg ds = effectDecision e := by
  rcases h with ⟨rfl, rfl⟩ | ⟨rfl, rfl⟩
  · exact if_pos (.inl hd)
  · exact if_pos hd

private theorem first_cut (e : Effect) (pre post : List Decision) :
    Spec.firstApplicable (pre ++ effectDecision e :: post) = Spec.firstApplicable (pre ++ [effectDecision e]) := by
  unfold Spec.firstApplicable
  simp only [List.find?_append, List.find?_cons]
  have : decide (effectDecision e ≠ .notApplicable) = true := by cases e <;> rfl
  rw [this]

private theorem first_head (e : Effect) (ds : List Decision) : Spec.firstApplicable (effectDecision e :: ds) = effectDecision e := by
  cases e <;> rfl

private theorem no_target {t : Option Target} (h : t = none) {b : Bool} : Applies env r t b ↔ b = true := by rw [h]; rfl

private theorem policies_split {ps qs : List PolicyNode} {ds : List Decision} :
    PoliciesMean env r (ps ++ qs) ds → ∃ d1 d2, ds = d1 ++ d2 ∧ PoliciesMean env r ps d1 ∧ PoliciesMean env r qs d2 := by
  induction ps generalizing ds with
  | nil => intro h; exact ⟨[], ds, rfl, .nil, h⟩
  | cons p ps ih =>
    intro h
    cases h with
    | cons h1 h2 =>
      obtain ⟨d1, d2, rfl, g1, g2⟩ := ih h2
      exact ⟨_ :: d1, d2, rfl, .cons h1 g1, g2⟩

private theorem policies_join {ps qs : List PolicyNode} {d1 d2 : List Decision} (h : PoliciesMean env r ps d1)
    (h' : PoliciesMean env r qs d2) : PoliciesMean env r (ps ++ qs) (d1 ++ d2) := by
  induction ps generalizing d1 with
  | nil => cases h; exact h'
  | cons p ps ih => cases h with | cons h1 h2 => exact .cons h1 (ih h2)

private theorem always_means (hs : StatelessPip (some r)) {e : Effect} {p : PolicyNode} (h : Always e p) {d : Decision}
    (hd : PolicyMeans env r p d) : d = effectDecision e := by
  induction h generalizing d with
  | firstRule ht ha hr =>
    cases hd with
    | rules _ g2 g3 =>
      rw [ha] at g2; injection g2 with g2; subst g2
      obtain ⟨x, ds, rfl, hx, _⟩ := g3
      rw [(catchAll_means hs hr).1 hx]
      exact first_head e ds
    | policyTargetFalse g => exact absurd ((no_target ht).1 g) (by decide)
    | policyTargetFails g => exact absurd ((no_target ht).2 rfl) (g true)
  | someRule ht ha hp hr hm =>
    cases hd with
    | rules _ g2 g3 =>
      rw [ha] at g2; injection g2 with g2; subst g2
      obtain ⟨x, hx, hk⟩ := each_member g3 hm
      rw [(catchAll_means hs hr).1 hk] at hx
      exact prevails_rules hp hx
    | policyTargetFalse g => exact absurd ((no_target ht).1 g) (by decide)
    | policyTargetFails g => exact absurd ((no_target ht).2 rfl) (g true)
  | firstPolicy ht ha _ ih =>
    cases hd with
    | policies _ g2 g3 =>
      rw [ha] at g2; injection g2 with g2; subst g2
      cases g3 with
      | cons k1 k2 => rw [ih k1]; exact first_head e _
    | setTargetFalse g => exact absurd ((no_target ht).1 g) (by decide)
    | setTargetFails g => exact absurd ((no_target ht).2 rfl) (g true)
  | somePolicy ht ha hp _ hm ih =>
    cases hd with
    | policies _ g2 g3 =>
      rw [ha] at g2; injection g2 with g2; subst g2
      obtain ⟨x, hx, hk⟩ := policies_member g3 hm
      rw [ih hk] at hx
      exact prevails_policies hp hx
    | setTargetFalse g => exact absurd ((no_target ht).1 g) (by decide)
    | setTargetFails g => exact absurd ((no_target ht).2 rfl) (g true)

mutual
private theorem dead_means (hs : StatelessPip (some r)) : {p p' : PolicyNode} → DeadDropped p p' → ∀ {d}, PolicyMeans env r p d →
    PolicyMeans env r p' d
  | _, _, .same, _, hd => hd
  | _, _, .trans h1 h2, _, hd => dead_means hs h2 (dead_means hs h1 hd)
  | _, _, .rulesAfter (e := e) (rule := rule) (pre := pre) (post := post) ha hr, _, hd => by
    cases hd with
    | rules g1 g2 g3 =>
      rw [ha] at g2; injection g2 with g2; subst g2
      obtain ⟨d1, d2, rfl, k1, x, d3, rfl, k2, _⟩ := each_append.1 g3
      have hx := (catchAll_means hs hr).1 k2
      subst hx
      have := PolicyMeans.rules (rules := pre ++ [rule]) g1 ha (each_append.2 ⟨d1, [effectDecision e], rfl, k1, _, _, rfl, k2, rfl⟩)
      simp only [Spec.combineRules] at this ⊢
      rw [first_cut]
      exact this
    | policyTargetFalse g => exact .policyTargetFalse g
    | policyTargetFails g => exact .policyTargetFails g
  | _, _, .rulesBeside (e := e) (rule := rule) ha hp hr hm, _, hd => by
    cases hd with
    | rules g1 g2 g3 =>
      rw [ha] at g2; injection g2 with g2; subst g2
      obtain ⟨x, hx, hk⟩ := each_member g3 hm
      have hx' := (catchAll_means hs hr).1 hk
      subst hx'
      rw [prevails_rules hp hx]
      have := PolicyMeans.rules (rules := [rule]) g1 ha ⟨_, [], rfl, hk, rfl⟩
      rw [prevails_rules hp (List.mem_singleton.2 rfl)] at this
      exact this
    | policyTargetFalse g => exact .policyTargetFalse g
    | policyTargetFails g => exact .policyTargetFails g
  | _, _, .policiesAfter (e := e) ha hp, _, hd => by
    cases hd with
    | policies g1 g2 g3 =>
      rw [ha] at g2; injection g2 with g2; subst g2
      obtain ⟨d1, d2, rfl, k1, k2⟩ := policies_split g3
      cases k2 with
      | cons k2 _ =>
        have hx := always_means hs hp k2
        subst hx
        have := PolicyMeans.policies g1 ha (policies_join k1 (.cons k2 .nil))
        simp only [Spec.combinePolicies] at this ⊢
        rw [first_cut]
        exact this
    | setTargetFalse g => exact .setTargetFalse g
    | setTargetFails g => exact .setTargetFails g
  | _, _, .policiesBeside (e := e) ha hp hq hm, _, hd => by
    cases hd with
    | policies g1 g2 g3 =>
      rw [ha] at g2; injection g2 with g2; subst g2
      obtain ⟨x, hx, hk⟩ := policies_member g3 hm
      have hx' := always_means hs hq hk
      subst hx'
      rw [prevails_policies hp hx]
      have := PolicyMeans.policies g1 ha (.cons hk .nil)
      rw [prevails_policies hp (List.mem_singleton.2 rfl)] at this
      exact this
    | setTargetFalse g => exact .setTargetFalse g
    | setTargetFails g => exact .setTargetFails g
  | _, _, .within h, _, hd => by
    cases hd with
    | policies g1 g2 g3 => exact .policies g1 g2 (deads_mean hs h g3)
    | setTargetFalse g => exact .setTargetFalse g
    | setTargetFails g => exact .setTargetFails g
private theorem deads_mean (hs : StatelessPip (some r)) : {ps ps' : List PolicyNode} → AllDeadDropped ps ps' → ∀ {ds},
    PoliciesMean env r ps ds → PoliciesMean env r ps' ds
  | _, _, .nil, _, h => h
  | _, _, .cons h1 h2, _, h => by
    cases h with
    | cons g1 g2 => exact .cons (dead_means hs h1 g1) (deads_mean hs h2 g2)
end

private theorem complete_members {ps : List PolicyNode} : AllComplete ps ↔ ∀ p ∈ ps, Complete p := by
  induction ps with
  | nil => simp [AllComplete]
  | cons p ps ih => simp [AllComplete, ih]

mutual
private theorem dead_complete : {p p' : PolicyNode} → DeadDropped p p' → Complete p → Complete p'
  | _, _, .same, hc => hc
  | _, _, .trans h1 h2, hc => dead_complete h2 (dead_complete h1 hc)
  | _, _, .rulesAfter _ _, hc => by
    unfold Complete at hc ⊢
    refine ⟨hc.1, fun x hx => hc.2 x ?_⟩
    simp only [List.mem_append, List.mem_cons, List.not_mem_nil, or_false] at hx ⊢
    rcases hx with hx | hx
    · exact .inl hx
    · exact .inr (.inl hx)
  | _, _, .rulesBeside _ _ _ hm, hc => by
    unfold Complete at hc ⊢
    exact ⟨hc.1, fun x hx => hc.2 x (List.mem_singleton.1 hx ▸ hm)⟩
  | _, _, .policiesAfter _ _, hc => by
    unfold Complete at hc ⊢
    rw [complete_members] at hc ⊢
    refine ⟨hc.1, fun x hx => hc.2 x ?_⟩
    simp only [List.mem_append, List.mem_cons, List.not_mem_nil, or_false] at hx ⊢
    rcases hx with hx | hx
    · exact .inl hx
    · exact .inr (.inl hx)
  | _, _, .policiesBeside _ _ _ hm, hc => by
    unfold Complete at hc ⊢
    rw [complete_members] at hc ⊢
    exact ⟨hc.1, fun x hx => hc.2 x (List.mem_singleton.1 hx ▸ hm)⟩
  | _, _, .within h, hc => by
    unfold Complete at hc ⊢
    exact ⟨hc.1, deads_complete h hc.2⟩
private theorem deads_complete : {ps ps' : List PolicyNode} → AllDeadDropped ps ps' → AllComplete ps → AllComplete ps'
  | _, _, .nil, hc => hc
  | _, _, .cons h1 h2, hc => by
    unfold AllComplete at hc ⊢
    exact ⟨dead_complete h1 hc.1, deads_complete h2 hc.2⟩
end

/-- **C117.** Dropping rules and policies that can have no influence, anywhere in a policy, any number of times,
changes no response, even if what is dropped cannot be evaluated. -/
theorem C117_dead (env : Env) (p p' : PolicyNode) (r : Request) (h : DeadDropped p p') (hc : Complete p)
    (hs : StatelessPip (some r)) {w w' : World} (hw : History env.re w) (hw' : History env.re w') :
    (pdpEvaluate env (some p') (some r) w').1 = (pdpEvaluate env (some p) (some r) w).1 := by
  obtain ⟨d, hd, h1⟩ := C64_pdp env r hs p hc hw
  obtain ⟨d', hd', h2⟩ := C64_pdp env r hs p' (dead_complete h hc) hw'
  rw [h1, h2, (hd' d).1 (dead_means hs h ((hd d).2 rfl))]

/-- **C117, what always has an effect.** A policy or policy set with such a rule first, or with such a rule whose effect
prevails, gives its effect to every request. -/
theorem C117_always (env : Env) (e : Effect) (p : PolicyNode) (r : Request) (h : Always e p) (hc : Complete p)
    (hs : StatelessPip (some r)) {w : World} (hw : History env.re w) :
    (pdpEvaluate env (some p) (some r) w).1 = .ok { results := [{ decision := effectDecision e, status := .ok }] } := by
  obtain ⟨d, hd, h1⟩ := C64_pdp env r hs p hc hw
  rw [h1, always_means hs h ((hd d).2 rfl)]

section NonVacuity
open Samples

/-- The hypotheses of `C117_dead` hold of a policy set in which a policy loses a rule that fails, and that then loses
all but that policy; the decision is Deny. -/
example :
    let q := PolicyNode.policy (hdr .firstApplicable) [always .deny, failing .permit]
    let p := PolicyNode.policySet (hdr .denyOverrides) [.policy (hdr .permitOverrides) [roleRule .permit "admin"], q]
    let p' := PolicyNode.policySet (hdr .denyOverrides) [.policy (hdr .firstApplicable) [always .deny]]
    DeadDropped p p' ∧ Complete p ∧ Always .deny p ∧ StatelessPip (some req) ∧ History Samples.env.re start ∧
      (pdpEvaluate Samples.env (some p) (some req) start).1 = .ok { results := [{ decision := .deny, status := .ok }] } := by
  have hq : Always .deny (.policy (hdr .firstApplicable) [always .deny, failing .permit]) := .firstRule rfl rfl ⟨rfl, rfl, rfl⟩
  refine ⟨.trans (.policiesBeside rfl (.inl ⟨rfl, rfl⟩) hq (by simp)) (.within (.cons ?_ .nil)), ?_,
    .somePolicy rfl rfl (.inl ⟨rfl, rfl⟩) hq (by simp), ?_, .start, rfl⟩
  · exact .rulesAfter (pre := []) (e := .deny) rfl ⟨rfl, rfl, rfl⟩
  · simp [Complete, AllComplete, hdr, roleRule, always, failing]
  · intro _ hr pip h; injection hr with hr; subst hr; simp [req] at h

/-- Under the other overrides algorithm the rules beside do have an influence. -/
example :
    (pdpEvaluate Samples.env (some (.policy (hdr .permitOverrides) [roleRule .permit "admin", always .deny])) (some req) start).1
      = .ok { results := [{ decision := .permit, status := .ok }] } ∧
    (pdpEvaluate Samples.env (some (.policy (hdr .permitOverrides) [always .deny])) (some req) start).1
      = .ok { results := [{ decision := .deny, status := .ok }] } := ⟨rfl, rfl⟩

end NonVacuity
end Xacml
