import Verif.Props.Semantics
import Verif.Lemmas.Readers
import Verif.Spec.Defaults
import Verif.Spec.Samples

/-!
# C115: default decisions
-/
namespace Xacml
open Spec

variable {env : Env} {r : Request}

theorem catchAll_means (hs : StatelessPip (some r)) {e : Effect} {rule : Rule} (h : CatchAll e rule) {d : Decision} :
    RuleMeans env r rule d ↔ d = effectDecision e := by
  obtain ⟨h1, h2, h3⟩ := h
  have ha : ∀ b, Applies env r rule.target b ↔ b = true := by intro b; rw [h2]; rfl
  have hh : ∀ b, Holds env r rule.condition b ↔ b = true := by intro b; rw [h3]; rfl
  constructor
  · intro h
    cases h with
    | targetFalse h => exact absurd ((ha _).1 h) (by decide)
    | conditionFalse _ h => exact absurd ((hh _).1 h) (by decide)
    | effect _ _ h => rw [h1] at h; injection h with h; rw [h]
    | targetFails h => exact absurd ((ha _).2 rfl) (h true)
    | conditionFails _ h => exact absurd ((hh _).2 rfl) (h true)
  · rintro rfl
    exact .effect ((ha _).2 rfl) ((hh _).2 rfl) h1

private theorem combineRules_single (alg : Alg) (e : Effect) :
    Spec.combineRules alg [some e] [effectDecision e] = effectDecision e := by
  cases alg <;> cases e <;> decide

private theorem find_append (ds : List Decision) (d : Decision) (hd : d ≠ .notApplicable) :
    Spec.firstApplicable (ds ++ [d]) = if Spec.firstApplicable ds = .notApplicable then d else Spec.firstApplicable ds := by
  induction ds with
  | nil => simp [Spec.firstApplicable, hd]
  | cons x ds ih =>
    cases x <;> simp_all [Spec.firstApplicable, List.find?_cons]

private theorem zip_last {es : List (Option Effect)} {ds : List Decision} (hl : es.length = ds.length) (x : Option Effect × Decision)
    (e : Effect) (d : Decision) : x ∈ (es ++ [some e]).zip (ds ++ [d]) ↔ x ∈ es.zip ds ∨ x = (some e, d) := by
  rw [List.zip_append hl]
  simp

/-- What the default does to the combined decision. -/
private def Filled (e : Effect) (alg : Alg) (d d' : Decision) : Prop :=
  (d' = d ∨ d' = effectDecision e ∧ (d = .notApplicable ∨ d = .indeterminate ∧ alg ≠ .firstApplicable)) ∧ d' ≠ .notApplicable

private theorem rules_filled {e : Effect} {alg : Alg} (ha : ComesLast e alg) {es : List (Option Effect)} {ds : List Decision}
    (hl : es.length = ds.length) :
    Filled e alg (Spec.combineRules alg es ds) (Spec.combineRules alg (es ++ [some e]) (ds ++ [effectDecision e])) := by
  rcases ha with rfl | ⟨rfl, rfl⟩ | ⟨rfl, rfl⟩
  · simp only [Spec.combineRules]
    rw [find_append _ _ (by cases e <;> decide)]
    unfold Filled
    split
    · rename_i h; exact ⟨.inr ⟨rfl, .inl h⟩, by cases e <;> decide⟩
    · rename_i h; exact ⟨.inl rfl, h⟩
  · simp only [Spec.combineRules, rulePermitOverrides, zip_last hl, List.mem_append, List.mem_singleton, effectDecision, Filled]
    by_cases h1 : Decision.permit ∈ ds <;> by_cases h2 : (some Effect.permit, Decision.indeterminate) ∈ es.zip ds <;>
      by_cases h3 : Decision.deny ∈ ds <;> by_cases h4 : Decision.indeterminate ∈ ds <;> simp [h1, h2, h3, h4]
  · simp only [Spec.combineRules, ruleDenyOverrides, zip_last hl, List.mem_append, List.mem_singleton, effectDecision, Filled]
    by_cases h1 : Decision.deny ∈ ds <;> by_cases h2 : (some Effect.deny, Decision.indeterminate) ∈ es.zip ds <;>
      by_cases h3 : Decision.permit ∈ ds <;> by_cases h4 : Decision.indeterminate ∈ ds <;> simp [h1, h2, h3, h4]

private theorem policies_filled {e : Effect} {alg : Alg} (ha : ComesLast e alg) (ds : List Decision) :
    Filled e alg (Spec.combinePolicies alg ds) (Spec.combinePolicies alg (ds ++ [effectDecision e])) := by
  rcases ha with rfl | ⟨rfl, rfl⟩ | ⟨rfl, rfl⟩
  · simp only [Spec.combinePolicies]
    rw [find_append _ _ (by cases e <;> decide)]
    unfold Filled
    split
    · rename_i h; exact ⟨.inr ⟨rfl, .inl h⟩, by cases e <;> decide⟩
    · rename_i h; exact ⟨.inl rfl, h⟩
  · simp only [Spec.combinePolicies, policyPermitOverrides, List.mem_append, List.mem_singleton, effectDecision, Filled]
    by_cases h1 : Decision.permit ∈ ds <;> by_cases h3 : Decision.deny ∈ ds <;> by_cases h4 : Decision.indeterminate ∈ ds <;>
      simp [h1, h3, h4]
  · simp only [Spec.combinePolicies, policyDenyOverrides, List.mem_append, List.mem_singleton, effectDecision, Filled]
    by_cases h1 : Decision.deny ∈ ds <;> by_cases h3 : Decision.permit ∈ ds <;> by_cases h4 : Decision.indeterminate ∈ ds <;>
      simp [h1, h3, h4]

private theorem each_len {α β} {R : α → β → Prop} {as : List α} {bs : List β} (h : Each R as bs) : as.length = bs.length := by
  induction as generalizing bs with
  | nil => cases (h : bs = []); rfl
  | cons a as ih => obtain ⟨b, bs, rfl, _, h⟩ := h; simp [ih h]

private theorem policiesMean_snoc {ps : List PolicyNode} {p : PolicyNode} {ds : List Decision} {d : Decision}
    (h : PoliciesMean env r ps ds) (hp : PolicyMeans env r p d) : PoliciesMean env r (ps ++ [p]) (ds ++ [d]) := by
  induction ps generalizing ds with
  | nil => cases h; exact .cons hp .nil
  | cons q ps ih => cases h with | cons h1 h2 => exact .cons h1 (ih h2)

private theorem default_complete {e : Effect} {p p' : PolicyNode} (h : WithDefault e p p') (hc : Complete p) : Complete p' := by
  cases h with
  | policy h1 h2 h3 =>
    unfold Complete at hc ⊢
    refine ⟨hc.1, fun x hx => ?_⟩
    rcases List.mem_append.1 hx with hx | hx
    · exact hc.2 x hx
    · rw [List.mem_singleton.1 hx, h3.1]; simp
  | @policySet _ _ ps h' rule h1 h2 h3 h4 h5 =>
    unfold Complete at hc ⊢
    refine ⟨hc.1, ?_⟩
    have := hc.2
    clear hc
    induction ps with
    | nil => simp [AllComplete, Complete, h5, h3.1]
    | cons q ps ih => exact ⟨this.1, ih this.2⟩

/-- A policy with a default and the policy without it, by what the target does. -/
private theorem default_means (hs : StatelessPip (some r)) {e : Effect} {p p' : PolicyNode} (h : WithDefault e p p') {d : Decision}
    (hd : PolicyMeans env r p d) : ∃ d', PolicyMeans env r p' d' ∧
      ((Applies env r (ownTarget p) true ∧ ∃ alg, ownAlg p = some alg ∧ Filled e alg d d') ∨
        ¬ Applies env r (ownTarget p) true ∧ d' = d) := by
  cases h with
  | @policy _ alg rs rule h1 h2 h3 =>
    cases hd with
    | @rules _ _ alg' ds g1 g2 g3 =>
      rw [h1] at g2; injection g2 with g2; subst g2
      refine ⟨_, .rules g1 h1 (each_append.2 ⟨ds, [effectDecision e], rfl, g3, _, _, rfl, (catchAll_means hs h3).2 rfl, rfl⟩),
        .inl ⟨g1, alg, h1, ?_⟩⟩
      rw [List.map_append, List.map_singleton, h3.1]
      exact rules_filled h2 (by rw [List.length_map]; exact each_len g3)
    | policyTargetFalse g =>
      exact ⟨_, .policyTargetFalse g, .inr ⟨fun hb => absurd (applies_unique hs g hb) (by decide), rfl⟩⟩
    | policyTargetFails g => exact ⟨_, .policyTargetFails g, .inr ⟨g _, rfl⟩⟩
  | @policySet _ alg ps h' rule h1 h2 h3 h4 h5 =>
    cases hd with
    | @policies _ _ alg' ds g1 g2 g3 =>
      rw [h1] at g2; injection g2 with g2; subst g2
      obtain ⟨alg1, ha1⟩ := Option.ne_none_iff_exists'.1 h5
      have hm : PolicyMeans env r (.policy h' [rule]) (effectDecision e) := by
        have := PolicyMeans.rules (env := env) (r := r) (hdr := h') (rules := [rule]) (ds := [effectDecision e]) (by rw [h4]; rfl) ha1
          ⟨_, _, rfl, (catchAll_means hs h3).2 rfl, rfl⟩
        rw [List.map_singleton, h3.1, combineRules_single] at this
        exact this
      exact ⟨_, .policies g1 h1 (policiesMean_snoc g3 hm), .inl ⟨g1, alg, h1, policies_filled h2 ds⟩⟩
    | setTargetFalse g =>
      exact ⟨_, .setTargetFalse g, .inr ⟨fun hb => absurd (applies_unique hs g hb) (by decide), rfl⟩⟩
    | setTargetFails g => exact ⟨_, .setTargetFails g, .inr ⟨g _, rfl⟩⟩

/-- **C115.** A default changes a decision only to its effect, and only if it was NotApplicable or, under an overrides
algorithm, Indeterminate; with it, the policy decides every request its target matches, and nothing else changes. -/
theorem C115_default (env : Env) (e : Effect) (p p' : PolicyNode) (r : Request) (h : WithDefault e p p') (hc : Complete p)
    (hs : StatelessPip (some r)) {w w' : World} (hw : History env.re w) (hw' : History env.re w') :
    ∃ d d', (pdpEvaluate env (some p) (some r) w).1 = .ok { results := [{ decision := d, status := .ok }] } ∧
      (pdpEvaluate env (some p') (some r) w').1 = .ok { results := [{ decision := d', status := .ok }] } ∧
      (d' = d ∨ d' = effectDecision e ∧ (d = .notApplicable ∨ d = .indeterminate ∧ ownAlg p ≠ some .firstApplicable)) ∧
      (Applies env r (ownTarget p) true → d' ≠ .notApplicable) ∧
      (¬ Applies env r (ownTarget p) true → d' = d) := by
  obtain ⟨d, hd, h1⟩ := C64_pdp env r hs p hc hw
  obtain ⟨d', hd', h2⟩ := C64_pdp env r hs p' (default_complete h hc) hw'
  obtain ⟨x, hx, hk⟩ := default_means hs h ((hd d).2 rfl)
  have hxd := (hd' x).1 hx
  subst hxd
  refine ⟨d, x, h1, h2, ?_⟩
  rcases hk with ⟨ht, alg, ha, hf⟩ | ⟨ht, rfl⟩
  · refine ⟨?_, fun _ => hf.2, fun h => absurd ht h⟩
    rw [ha]
    rcases hf.1 with h | ⟨h, h' | ⟨h', h''⟩⟩
    · exact .inl h
    · exact .inr ⟨h, .inl h'⟩
    · exact .inr ⟨h, .inr ⟨h', fun hk => h'' (by injection hk)⟩⟩
  · exact ⟨.inl rfl, fun h => absurd h ht, fun _ => rfl⟩

private theorem rules_decide {alg : Alg} {es : List (Option Effect)} {ds : List Decision} {e : Effect}
    (h : effectDecision e ∈ ds) : Spec.combineRules alg es ds ≠ .notApplicable := by
  cases alg
  · simp only [Spec.combineRules, ruleDenyOverrides]
    cases e <;> simp only [effectDecision] at h <;> (repeat' split) <;> simp_all
  · simp only [Spec.combineRules, rulePermitOverrides]
    cases e <;> simp only [effectDecision] at h <;> (repeat' split) <;> simp_all
  · simp only [Spec.combineRules, Spec.firstApplicable]
    cases hf : ds.find? (· ≠ .notApplicable) with
    | none =>
      have := List.find?_eq_none.1 hf _ h
      cases e <;> simp [effectDecision] at this
    | some x => simpa using List.find?_some hf

private theorem policies_decide {alg : Alg} {ds : List Decision} {d : Decision} (hd : d ≠ .notApplicable) (h : d ∈ ds) :
    Spec.combinePolicies alg ds ≠ .notApplicable := by
  cases alg
  · simp only [Spec.combinePolicies, policyDenyOverrides]
    cases d <;> first | exact absurd rfl hd | ((repeat' split) <;> simp_all)
  · simp only [Spec.combinePolicies, policyPermitOverrides]
    cases d <;> first | exact absurd rfl hd | ((repeat' split) <;> simp_all)
  · simp only [Spec.combinePolicies, Spec.firstApplicable]
    cases hf : ds.find? (· ≠ .notApplicable) with
    | none =>
      have := List.find?_eq_none.1 hf _ h
      simp [hd] at this
    | some x => simpa using List.find?_some hf

theorem each_member {α β} {R : α → β → Prop} {as : List α} {bs : List β} (h : Each R as bs) {a : α} (ha : a ∈ as) :
    ∃ b ∈ bs, R a b := by
  induction as generalizing bs with
  | nil => cases ha
  | cons x as ih =>
    obtain ⟨b, bs, rfl, hb, h⟩ := h
    rcases List.mem_cons.1 ha with rfl | ha
    · exact ⟨b, List.mem_cons_self .., hb⟩
    · obtain ⟨c, hc, h⟩ := ih h ha
      exact ⟨c, List.mem_cons_of_mem _ hc, h⟩

theorem policies_member {ps : List PolicyNode} {ds : List Decision} (h : PoliciesMean env r ps ds) {p : PolicyNode}
    (hp : p ∈ ps) : ∃ d ∈ ds, PolicyMeans env r p d := by
  induction ps generalizing ds with
  | nil => cases hp
  | cons x ps ih =>
    cases h with
    | cons h1 h2 =>
      rcases List.mem_cons.1 hp with rfl | hp
      · exact ⟨_, List.mem_cons_self .., h1⟩
      · obtain ⟨c, hc, h⟩ := ih h2 hp
        exact ⟨c, List.mem_cons_of_mem _ hc, h⟩

private theorem catchAll_decides (hs : StatelessPip (some r)) {p : PolicyNode} (h : HasCatchAll p) {d : Decision}
    (hd : PolicyMeans env r p d) : d ≠ .notApplicable := by
  induction h generalizing d with
  | @policy hdr _ _ _ ht hm hr =>
    have ha : ∀ b, Applies env r hdr.target b ↔ b = true := by intro b; rw [ht]; rfl
    cases hd with
    | rules _ _ g3 =>
      obtain ⟨x, hx, hk⟩ := each_member g3 hm
      rw [(catchAll_means hs hr).1 hk] at hx
      exact rules_decide hx
    | policyTargetFalse g => exact absurd ((ha _).1 g) (by decide)
    | policyTargetFails g => exact (fun h => nomatch h)
  | @policySet hdr _ _ ht hm _ ih =>
    have ha : ∀ b, Applies env r hdr.target b ↔ b = true := by intro b; rw [ht]; rfl
    cases hd with
    | policies _ _ g3 =>
      obtain ⟨x, hx, hk⟩ := policies_member g3 hm
      exact policies_decide (ih hk) hx
    | setTargetFalse g => exact absurd ((ha _).1 g) (by decide)
    | setTargetFails g => exact (fun h => nomatch h)

/-- **C115, whole trees.** A policy set that contains, below no target, a rule for every request decides every request,
whatever its combining algorithms are and whatever else it contains. -/
theorem C115_decides (env : Env) (p : PolicyNode) (r : Request) (h : HasCatchAll p) (hc : Complete p)
    (hs : StatelessPip (some r)) {w : World} (hw : History env.re w) :
    ∃ d, (pdpEvaluate env (some p) (some r) w).1 = .ok { results := [{ decision := d, status := .ok }] } ∧
      d ≠ .notApplicable := by
  obtain ⟨d, hd, h1⟩ := C64_pdp env r hs p hc hw
  exact ⟨d, h1, catchAll_decides hs h ((hd d).2 rfl)⟩

section NonVacuity
open Samples

/-- The hypotheses of `C115_default` hold of a policy with a default Deny, which turns NotApplicable into Deny, and of a
policy set. -/
example :
    let p := PolicyNode.policy (hdr .permitOverrides) [roleRule .permit "guest"]
    let p' := PolicyNode.policy (hdr .permitOverrides) [roleRule .permit "guest", always .deny]
    let q := PolicyNode.policySet (hdr .firstApplicable) [p]
    let q' := PolicyNode.policySet (hdr .firstApplicable) [p, .policy (hdr .denyOverrides) [always .permit]]
    WithDefault .deny p p' ∧ WithDefault .permit q q' ∧ Complete p ∧ Complete q ∧ StatelessPip (some req) ∧
      History Samples.env.re start ∧ Applies Samples.env req (ownTarget p) true ∧
      (pdpEvaluate Samples.env (some p) (some req) start).1 = .ok { results := [{ decision := .notApplicable, status := .ok }] } ∧
      (pdpEvaluate Samples.env (some p') (some req) start).1 = .ok { results := [{ decision := .deny, status := .ok }] } ∧
      (pdpEvaluate Samples.env (some q') (some req) start).1 = .ok { results := [{ decision := .permit, status := .ok }] } := by
  refine ⟨.policy (rs := [_]) rfl (.inr (.inl ⟨rfl, rfl⟩)) ⟨rfl, rfl, rfl⟩,
    .policySet (ps := [_]) rfl (.inl rfl) ⟨rfl, rfl, rfl⟩ rfl (by simp [hdr]), ?_, ?_, ?_, .start, rfl, rfl, rfl, rfl⟩
  · simp [Complete, hdr, roleRule]
  · simp [Complete, AllComplete, hdr, roleRule]
  · intro _ hr pip h; injection hr with hr; subst hr; simp [req] at h

/-- Under an overrides algorithm a default Deny also settles what a failing Deny rule left open, but not what a failing
Permit rule did. -/
example :
    (pdpEvaluate Samples.env (some (.policy (hdr .permitOverrides) [failing .deny])) (some req) start).1
      = .ok { results := [{ decision := .indeterminate, status := .ok }] } ∧
    (pdpEvaluate Samples.env (some (.policy (hdr .permitOverrides) [failing .deny, always .deny])) (some req) start).1
      = .ok { results := [{ decision := .deny, status := .ok }] } ∧
    (pdpEvaluate Samples.env (some (.policy (hdr .permitOverrides) [failing .permit, always .deny])) (some req) start).1
      = .ok { results := [{ decision := .indeterminate, status := .ok }] } := ⟨rfl, rfl, rfl⟩

/-- The hypotheses of `C115_decides` hold of a policy set with a rule for every request two levels below. -/
example :
    let p := PolicyNode.policySet (hdr .denyOverrides) [.policy (hdr .firstApplicable (some (roleTarget "guest"))) [always .deny],
      .policySet (hdr .permitOverrides) [.policy (hdr .firstApplicable) [failing .deny, always .permit]]]
    HasCatchAll p ∧ Complete p ∧
      (pdpEvaluate Samples.env (some p) (some req) start).1 = .ok { results := [{ decision := .deny, status := .ok }] } := by
  refine ⟨.policySet rfl (List.mem_cons_of_mem _ (List.mem_cons_self ..)) (.policySet rfl (List.mem_cons_self ..)
    (.policy (e := .permit) rfl (List.mem_cons_of_mem _ (List.mem_cons_self ..)) ⟨rfl, rfl, rfl⟩)), ?_, rfl⟩
  simp [Complete, AllComplete, hdr, failing, always]

/-- Below a target there may be no decision. -/
example :
    (pdpEvaluate Samples.env (some (.policy (hdr .firstApplicable (some (roleTarget "guest"))) [always .deny])) (some req) start).1
      = .ok { results := [{ decision := .notApplicable, status := .ok }] } := rfl

end NonVacuity
end Xacml
