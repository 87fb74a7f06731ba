import Verif.Lemmas.Transport
import Verif.Spec.Formulas
import Verif.Spec.Samples

/-!
# C114: targets are formulas
-/
namespace Xacml
open Spec

variable {env : Env} {r : Request}

private theorem match_unique (hs : StatelessPip (some r)) {m : Match} {b b' : Bool} (h : MatchMeans env r m b)
    (h' : MatchMeans env r m b') : b = b' := by
  have h1 := (match_den env r hs m b).2 h
  rw [(match_den env r hs m b').2 h'] at h1
  injection h1 with h1
  exact h1.symm

private theorem entry_says (hs : StatelessPip (some r)) {ms : List Match} {bs : List Bool} (h : Each (MatchMeans env r) ms bs) :
    (∀ m ∈ ms, ∃ b, MatchMeans env r m b) ∧ ((∀ b ∈ bs, b = true) ↔ ∀ m ∈ ms, MatchMeans env r m true) := by
  induction ms generalizing bs with
  | nil => cases (h : bs = []); simp
  | cons m ms ih =>
    obtain ⟨b, bs, rfl, hb, h⟩ := h
    obtain ⟨h1, h2⟩ := ih h
    simp only [List.forall_mem_cons, h2]
    refine ⟨⟨⟨b, hb⟩, h1⟩, and_congr_left fun _ => ⟨fun h => h ▸ hb, fun h => match_unique hs hb h⟩⟩

private theorem entry_means {ms : List Match} (h : ∀ m ∈ ms, ∃ b, MatchMeans env r m b) :
    ∃ bs, Each (MatchMeans env r) ms bs := by
  induction ms with
  | nil => exact ⟨[], rfl⟩
  | cons m ms ih =>
    rw [List.forall_mem_cons] at h
    obtain ⟨b, hb⟩ := h.1
    obtain ⟨bs, hbs⟩ := ih h.2
    exact ⟨b :: bs, b, bs, rfl, hb, hbs⟩

private theorem section_says (hs : StatelessPip (some r)) {cs : List TargetChild} {es : List (List Bool)}
    (h : SectionMeans env r cs es) :
    (∀ c ∈ cs, ∀ m ∈ c.matches_, ∃ b, MatchMeans env r m b) ∧
      (SectionMatches es ↔ SectionSays (fun m => MatchMeans env r m true) cs) := by
  have key : (∀ c ∈ cs, ∀ m ∈ c.matches_, ∃ b, MatchMeans env r m b) ∧ (es = [] ↔ cs = []) ∧
      ((∃ e ∈ es, ∀ b ∈ e, b = true) ↔ ∃ c ∈ cs, ∀ m ∈ c.matches_, MatchMeans env r m true) := by
    induction cs generalizing es with
    | nil => cases (h : es = []); simp
    | cons c cs ih =>
      obtain ⟨bs, es, rfl, hb, h⟩ := h
      obtain ⟨h1, _, h2⟩ := ih h
      obtain ⟨g1, g2⟩ := entry_says hs hb
      refine ⟨?_, by simp, ?_⟩
      · rw [List.forall_mem_cons]; exact ⟨g1, h1⟩
      · constructor
        · rintro ⟨e, he, h⟩
          rcases List.mem_cons.1 he with rfl | he
          · exact ⟨c, List.mem_cons_self .., g2.1 h⟩
          · obtain ⟨x, hx, h⟩ := h2.1 ⟨e, he, h⟩
            exact ⟨x, List.mem_cons_of_mem _ hx, h⟩
        · rintro ⟨x, hx, h⟩
          rcases List.mem_cons.1 hx with rfl | hx
          · exact ⟨bs, List.mem_cons_self .., g2.2 h⟩
          · obtain ⟨e, he, h⟩ := h2.2 ⟨x, hx, h⟩
            exact ⟨e, List.mem_cons_of_mem _ he, h⟩
  exact ⟨key.1, or_congr key.2.1 key.2.2⟩

private theorem section_means {cs : List TargetChild} (h : ∀ c ∈ cs, ∀ m ∈ c.matches_, ∃ b, MatchMeans env r m b) :
    ∃ es, SectionMeans env r cs es := by
  induction cs with
  | nil => exact ⟨[], rfl⟩
  | cons c cs ih =>
    rw [List.forall_mem_cons] at h
    obtain ⟨bs, hb⟩ := entry_means h.1
    obtain ⟨es, he⟩ := ih h.2
    exact ⟨bs :: es, bs, es, rfl, hb, he⟩

private theorem containsMatch_all (P : Match → Prop) (t : Target) : (∀ m, ContainsMatch (some t) m → P m) ↔
    (∀ c ∈ t.subjects, ∀ m ∈ c.matches_, P m) ∧ (∀ c ∈ t.resources, ∀ m ∈ c.matches_, P m) ∧
      (∀ c ∈ t.actions, ∀ m ∈ c.matches_, P m) ∧ (∀ c ∈ t.environments, ∀ m ∈ c.matches_, P m) := by
  constructor
  · intro h
    have : ∀ c ∈ t.subjects ++ t.resources ++ t.actions ++ t.environments, ∀ m ∈ c.matches_, P m := fun c hc m hm =>
      h m ⟨t, rfl, List.mem_flatMap.2 ⟨c, hc, hm⟩⟩
    exact ⟨fun c hc => this c (by simp [hc]), fun c hc => this c (by simp [hc]), fun c hc => this c (by simp [hc]),
      fun c hc => this c (by simp [hc])⟩
  · rintro ⟨k1, k2, k3, k4⟩ m ⟨_, hu, hm⟩
    injection hu with hu
    subst hu
    obtain ⟨c, hc, hm⟩ := List.mem_flatMap.1 hm
    simp only [List.mem_append] at hc
    rcases hc with ((hc | hc) | hc) | hc
    · exact k1 c hc m hm
    · exact k2 c hc m hm
    · exact k3 c hc m hm
    · exact k4 c hc m hm

/-- A target has a truth value exactly if each of its match elements has one; it is then what the formula says. -/
private theorem applies_says (hs : StatelessPip (some r)) (t : Option Target) (b : Bool) :
    Applies env r t b ↔ (∀ m, ContainsMatch t m → ∃ b, MatchMeans env r m b) ∧
      (b = true ↔ TargetSays (fun m => MatchMeans env r m true) t) := by
  cases t with
  | none =>
    constructor
    · intro h; exact ⟨fun m ⟨_, h, _⟩ => (nomatch h), fun _ => trivial, fun _ => h⟩
    · intro h; exact h.2.2 trivial
  | some t =>
    rw [containsMatch_all]
    constructor
    · rintro ⟨ss, rs, as, es, k1, k2, k3, k4, hb⟩
      obtain ⟨a1, b1⟩ := section_says hs k1
      obtain ⟨a2, b2⟩ := section_says hs k2
      obtain ⟨a3, b3⟩ := section_says hs k3
      obtain ⟨a4, b4⟩ := section_says hs k4
      rw [b1, b2, b3, b4] at hb
      exact ⟨⟨a1, a2, a3, a4⟩, hb⟩
    · rintro ⟨⟨a1, a2, a3, a4⟩, hb⟩
      obtain ⟨ss, k1⟩ := section_means a1
      obtain ⟨rs, k2⟩ := section_means a2
      obtain ⟨as, k3⟩ := section_means a3
      obtain ⟨es, k4⟩ := section_means a4
      refine ⟨ss, rs, as, es, k1, k2, k3, k4, ?_⟩
      rw [(section_says hs k1).2, (section_says hs k2).2, (section_says hs k3).2, (section_says hs k4).2]
      exact hb

private theorem applies_same (hs : StatelessPip (some r)) {t t' : Option Target} (h : SameTarget t t') (b : Bool) :
    Applies env r t b ↔ Applies env r t' b := by
  rw [applies_says hs, applies_says hs, h.2]
  simp only [h.1]

/-- **C114, targets.** Targets that contain the same match elements and are logically equivalent match alike:
both match, neither does, or both fail. -/
theorem C114_target (env : Env) (r : Request) (hs : StatelessPip (some r)) (t t' : Option Target) (h : SameTarget t t')
    {w w' : World} (hw : History env.re w) (hw' : History env.re w') (b : Bool) :
    (targetMatch env t (some r) w).1 = .ok b ↔ (targetMatch env t' (some r) w').1 = .ok b := by
  rw [(target_stable env hs t).den (history_coh hw), (target_stable env hs t').den (history_coh hw'),
    target_den env r hs, target_den env r hs]
  exact applies_same hs h b

private theorem ruleTarget_same (hs : StatelessPip (some r)) {a b : Rule} (h : SameRuleTarget a b) (d : Decision) :
    RuleMeans env r a d ↔ RuleMeans env r b d := by
  obtain ⟨h1, h2, h3⟩ := h
  exact ⟨ruleMeans_carry h1 (applies_same hs h3) fun x => by rw [h2],
    ruleMeans_carry h1.symm (fun x => (applies_same hs h3 x).symm) fun x => by rw [h2]⟩

mutual
private theorem targets_policy (hs : StatelessPip (some r)) : {p p' : PolicyNode} → SameTargets p p' → SamePolicy env r r p p'
  | _, _, .policy h1 h2 h3 => .policy h1 (applies_same hs h2)
      (each_imp (fun _ _ hab => ⟨hab.1, ruleTarget_same hs hab⟩) h3)
  | _, _, .policySet h1 h2 h3 => .policySet h1 (applies_same hs h2) (targets_policies hs h3)
private theorem targets_policies (hs : StatelessPip (some r)) : {ps ps' : List PolicyNode} → AllSameTargets ps ps' →
    SamePolicies env r r ps ps'
  | _, _, .nil => .nil
  | _, _, .cons h1 h2 => .cons (targets_policy hs h1) (targets_policies hs h2)
end

private theorem effects_targets {rs rs' : List Rule} (h : Each SameRuleTarget rs rs') (hc : ∀ x ∈ rs, x.effect ≠ none) :
    ∀ x ∈ rs', x.effect ≠ none := by
  induction rs generalizing rs' with
  | nil => cases (h : rs' = []); simp
  | cons a rs ih =>
    obtain ⟨b, bs, rfl, g1, g2⟩ := h
    rw [List.forall_mem_cons] at hc ⊢
    exact ⟨g1.1 ▸ hc.1, ih g2 hc.2⟩

mutual
private theorem complete_targets : {p p' : PolicyNode} → SameTargets p p' → Complete p → Complete p'
  | _, _, .policy h1 _ h3, hc => by
    unfold Complete at hc ⊢
    exact ⟨h1 ▸ hc.1, effects_targets h3 hc.2⟩
  | _, _, .policySet h1 _ h3, hc => by
    unfold Complete at hc ⊢
    exact ⟨h1 ▸ hc.1, completes_targets h3 hc.2⟩
private theorem completes_targets : {ps ps' : List PolicyNode} → AllSameTargets ps ps' → AllComplete ps → AllComplete ps'
  | _, _, .nil, hc => hc
  | _, _, .cons h1 h2, hc => by
    unfold AllComplete at hc ⊢
    exact ⟨complete_targets h1 hc.1, completes_targets h2 hc.2⟩
end

/-- **C114.** Writing targets anywhere in a policy as other formulas with the same match elements that are
logically equivalent changes no response, after any histories. -/
theorem C114_policy (env : Env) (p p' : PolicyNode) (hc : Complete p) (h : SameTargets p p') (r : Request)
    (hs : StatelessPip (some r)) {w w' : World} (hw : History env.re w) (hw' : History env.re w') :
    (pdpEvaluate env (some p) (some r) w).1 = (pdpEvaluate env (some p') (some r) w').1 :=
  pdp_of_means hs hs hc (complete_targets h hc) (fun d => ⟨policyMeans_carry (targets_policy hs h) d,
    policyMeans_carry (targets_policy hs h).flip d⟩) hw hw'

section
open Samples

/-- `admin`, or `admin` and `staff`, and again `staff` and `admin`. -/
private def wordy : Target :=
  { subjects := [{ matches_ := [roleMatch "admin"] }, { matches_ := [roleMatch "admin", roleMatch "staff"] },
      { matches_ := [roleMatch "staff", roleMatch "admin", roleMatch "staff"] }]
    resources := [], actions := [], environments := [] }
/-- `admin`, or `admin` and `staff`. -/
private def brief : Target :=
  { subjects := [{ matches_ := [roleMatch "admin", roleMatch "staff"] }, { matches_ := [roleMatch "admin"] }]
    resources := [], actions := [], environments := [] }

private theorem wordy_brief : SameTarget (some wordy) (some brief) := by
  constructor
  · intro m
    simp [ContainsMatch, wordy, brief, allMatches]
    constructor
    · intro h; rcases h with h | h | h | h | h <;> simp [h]
    · intro h; rcases h with h | h <;> simp [h]
  · intro holds
    simp [TargetSays, SectionSays, wordy, brief]
    constructor
    · rintro (h | h | h)
      · exact .inr h
      · exact .inr h.1
      · exact .inr h.2.1
    · rintro (h | h)
      · exact .inl h.1
      · exact .inl h

/-- The hypotheses of `C114_policy` hold of a policy set with such targets in a policy and in a rule; the decision is
Permit. -/
example :
    let p := PolicyNode.policySet (hdr .denyOverrides) [.policy (hdr .firstApplicable (some wordy))
      [{ always .permit with target := some brief }]]
    let p' := PolicyNode.policySet (hdr .denyOverrides) [.policy (hdr .firstApplicable (some brief))
      [{ always .permit with target := some wordy }]]
    Complete p ∧ SameTargets p p' ∧ StatelessPip (some req) ∧ History Samples.env.re start ∧
      (pdpEvaluate Samples.env (some p) (some req) start).1 = .ok { results := [{ decision := .permit, status := .ok }] } := by
  refine ⟨by simp [Complete, AllComplete, hdr, always], ?_, ?_, .start, rfl⟩
  · exact .policySet rfl ⟨fun _ => Iff.rfl, fun _ => Iff.rfl⟩ (.cons (.policy rfl wordy_brief
      ⟨_, _, rfl, ⟨rfl, rfl, fun m => (wordy_brief.1 m).symm, fun h => (wordy_brief.2 h).symm⟩, rfl⟩) .nil)
  · intro _ hr pip h; injection hr with hr; subst hr; simp [req] at h

/-- Logical equivalence alone is not enough: an alternative that says nothing new, but contains a match element that
fails, makes a Permit Indeterminate. -/
theorem C114_elements_matter :
    let t : Target := { roleTarget "admin" with subjects := [{ matches_ := [roleMatch "admin"] }] }
    let t' : Target := { t with subjects := [{ matches_ := [roleMatch "admin"] }, { matches_ := [roleMatch "admin", errMatch] }] }
    (∀ holds, TargetSays holds (some t) ↔ TargetSays holds (some t')) ∧
    (pdpEvaluate Samples.env (some (.policy (hdr .denyOverrides (some t)) [always .permit])) (some req) start).1
      = .ok { results := [{ decision := .permit, status := .ok }] } ∧
    (pdpEvaluate Samples.env (some (.policy (hdr .denyOverrides (some t')) [always .permit])) (some req) start).1
      = .ok { results := [{ decision := .indeterminate, status := .ok }] } := by
  refine ⟨fun holds => ?_, rfl, rfl⟩
  simp [TargetSays, SectionSays]
  intros; assumption

end
end Xacml
