import Verif.Spec.Restricting
import Verif.Props.Semantics

/-!
# C110, C111: restricting Permit rules and widening Deny rules never grants
-/
namespace Xacml
open Spec

/-- It was Permit, or it stays, or it becomes Deny or Indeterminate. -/
private def Lower (d d' : Decision) : Prop := d = .permit ∨ d' = d ∨ d' = .deny ∨ d' = .indeterminate

/-- What restricting Permit rules and widening Deny rules may do to the decision of a rule. -/
private def PairStep (x x' : Option Effect × Decision) : Prop :=
  x'.1 = x.1 ∧ (x'.2 = x.2 ∨ x.2 = .permit ∨ x.2 = .notApplicable ∧ x'.2 = .indeterminate ∨ x'.2 = .deny)

private theorem matches_narrowed {env : Env} {r : Request} {ms ms' : List Match}
    (h : Inserted (fun _ => True) ms ms') {bs' : List Bool} (hb : Each (MatchMeans env r) ms' bs') :
    ∃ bs, Each (MatchMeans env r) ms bs ∧ ((∀ b ∈ bs', b = true) → ∀ b ∈ bs, b = true) := by
  induction h generalizing bs' with
  | nil => exact ⟨[], rfl, fun _ _ h => nomatch h⟩
  | keep _ ih =>
    obtain ⟨b, bs', rfl, h1, h2⟩ := hb
    obtain ⟨bs, h3, h4⟩ := ih h2
    refine ⟨b :: bs, ⟨b, bs, rfl, h1, h3⟩, fun h x hx => ?_⟩
    rcases List.mem_cons.1 hx with rfl | hx
    · exact h _ (List.mem_cons_self ..)
    · exact h4 (fun y hy => h y (List.mem_cons_of_mem _ hy)) x hx
  | add _ _ ih =>
    obtain ⟨b, bs', rfl, h1, h2⟩ := hb
    obtain ⟨bs, h3, h4⟩ := ih h2
    exact ⟨bs, h3, fun h => h4 fun y hy => h y (List.mem_cons_of_mem _ hy)⟩

private theorem entries_narrowed {env : Env} {r : Request} {cs cs' : List TargetChild}
    (h : Each (fun c c' : TargetChild => Inserted (fun _ => True) c.matches_ c'.matches_) cs cs')
    {es' : List (List Bool)} (he : SectionMeans env r cs' es') :
    ∃ es, SectionMeans env r cs es ∧ (es' = [] → es = []) ∧
      ((∃ e ∈ es', ∀ b ∈ e, b = true) → ∃ e ∈ es, ∀ b ∈ e, b = true) := by
  induction cs generalizing cs' es' with
  | nil =>
    rw [each_nil] at h; subst h
    have : es' = [] := he
    subst this
    exact ⟨[], rfl, fun _ => rfl, fun ⟨_, h, _⟩ => nomatch h⟩
  | cons c cs ih =>
    obtain ⟨c', cs', rfl, hc, h⟩ := h
    obtain ⟨e', es', rfl, h1, h2⟩ := he
    obtain ⟨e, h3, h4⟩ := matches_narrowed hc h1
    obtain ⟨es, h5, _, h6⟩ := ih h h2
    refine ⟨e :: es, ⟨e, es, rfl, h3, h5⟩, (by intro h; cases h), ?_⟩
    rintro ⟨x, hx, ht⟩
    rcases List.mem_cons.1 hx with rfl | hx
    · exact ⟨e, List.mem_cons_self .., h4 ht⟩
    · obtain ⟨y, hy, hy'⟩ := h6 ⟨x, hx, ht⟩
      exact ⟨y, List.mem_cons_of_mem _ hy, hy'⟩

private theorem section_narrowed {env : Env} {r : Request} {cs cs' : List TargetChild} (h : SectionNarrowed cs cs')
    {es' : List (List Bool)} (he : SectionMeans env r cs' es') :
    ∃ es, SectionMeans env r cs es ∧ (SectionMatches es' → SectionMatches es) := by
  rcases h with rfl | h
  · exact ⟨[], rfl, fun _ => .inl rfl⟩
  · obtain ⟨es, h1, h2, h3⟩ := entries_narrowed h he
    exact ⟨es, h1, fun h => h.imp h2 h3⟩

private theorem target_narrowed {env : Env} {r : Request} {t t' : Option Target} (h : TargetNarrowed t t') {b' : Bool}
    (ha : Applies env r t' b') : ∃ b, Applies env r t b ∧ (b' = true → b = true) := by
  cases t with
  | none => exact ⟨true, rfl, fun _ => rfl⟩
  | some t =>
    cases t' with
    | none => exact h.elim
    | some t' =>
      obtain ⟨h1, h2, h3, h4⟩ := h
      obtain ⟨ss', rs', as', es', k1, k2, k3, k4, hb⟩ := ha
      obtain ⟨ss, m1, n1⟩ := section_narrowed h1 k1
      obtain ⟨rs, m2, n2⟩ := section_narrowed h2 k2
      obtain ⟨as, m3, n3⟩ := section_narrowed h3 k3
      obtain ⟨es, m4, n4⟩ := section_narrowed h4 k4
      by_cases hm : SectionMatches ss ∧ SectionMatches rs ∧ SectionMatches as ∧ SectionMatches es
      · exact ⟨true, ⟨ss, rs, as, es, m1, m2, m3, m4, by simp [hm]⟩, fun _ => rfl⟩
      · refine ⟨false, ⟨ss, rs, as, es, m1, m2, m3, m4, by simp [hm]⟩, fun h => ?_⟩
        obtain ⟨x1, x2, x3, x4⟩ := hb.1 h
        exact absurd ⟨n1 x1, n2 x2, n3 x3, n4 x4⟩ hm

private theorem rule_step {env : Env} {r : Request} (hs : StatelessPip (some r)) {rule rule' : Rule}
    (he : rule.effect ≠ none)
    (h : RuleRestricted (fun x => ∃ b, Holds env r x.condition b) rule rule') {d d' : Decision}
    (hd : RuleMeans env r rule d) (hd' : RuleMeans env r rule' d') :
    PairStep (rule.effect, d) (rule'.effect, d') := by
  rcases h with rfl | ⟨e1, e2, hc, ht⟩
  · refine ⟨rfl, .inl ?_⟩
    rw [← rule_den env r hs rule' he] at hd hd'
    rw [hd] at hd'; injection hd' with hd'; exact hd'.symm
  · refine ⟨by simp [e1, e2], ?_⟩
    have hT : ∀ b', Applies env r rule'.target b' → ∃ b, Applies env r rule.target b ∧ (b' = true → b = true) := by
      intro b' hb'
      rcases ht with ht | ⟨ht, -⟩
      · exact ⟨b', ht ▸ hb', id⟩
      · exact target_narrowed ht hb'
    have hC : ∀ b', Holds env r rule'.condition b' → ∃ b, Holds env r rule.condition b ∧ (b' = true → b = true) := by
      intro b' hb'
      rcases hc with hc | hc
      · exact ⟨b', hc ▸ hb', id⟩
      · exact ⟨true, by rw [hc]; rfl, fun _ => rfl⟩
    simp only
    cases hd with
    | @effect e _ _ h =>
      rw [e1] at h; injection h with h; subst h
      exact .inr (.inl rfl)
    | targetFalse h1 =>
      cases hd' with
      | targetFalse | conditionFalse => exact .inl rfl
      | targetFails | conditionFails => exact .inr (.inr (.inl ⟨rfl, rfl⟩))
      | effect h2 =>
        obtain ⟨b, hb, hb'⟩ := hT _ h2
        rw [hb' rfl] at hb
        cases applies_unique hs h1 hb
    | conditionFalse h1 h2 =>
      cases hd' with
      | targetFalse | conditionFalse => exact .inl rfl
      | targetFails | conditionFails => exact .inr (.inr (.inl ⟨rfl, rfl⟩))
      | effect _ h3 =>
        obtain ⟨b, hb, hb'⟩ := hC _ h3
        rw [hb' rfl] at hb
        cases holds_unique hs h2 hb
    | targetFails h1 =>
      cases hd' with
      | targetFails | conditionFails => exact .inl rfl
      | targetFalse h2 | conditionFalse h2 | effect h2 =>
        obtain ⟨b, hb, _⟩ := hT _ h2
        exact absurd hb (h1 b)
    | conditionFails h1 h2 =>
      have hcc : rule'.condition = rule.condition := by
        rcases hc with hc | hc
        · exact hc
        · exact absurd (by rw [hc]; rfl) (h2 true)
      have htt : rule'.target = rule.target := by
        rcases ht with ht | ⟨-, b, hb⟩
        · exact ht
        · exact absurd hb (h2 b)
      cases hd' with
      | targetFails | conditionFails => exact .inl rfl
      | targetFalse h3 => rw [htt] at h3; cases applies_unique hs h1 h3
      | conditionFalse _ h3 | effect _ h3 => rw [hcc] at h3; exact absurd h3 (h2 _)

private theorem widened_step {env : Env} {r : Request} (hs : StatelessPip (some r)) {rule rule' : Rule}
    (he : rule.effect ≠ none)
    (h : RuleWidened (fun x => ∃ b, Applies env r x.target b) rule rule') {d d' : Decision}
    (hd : RuleMeans env r rule d) (hd' : RuleMeans env r rule' d') :
    PairStep (rule.effect, d) (rule'.effect, d') := by
  rcases h with rfl | ⟨e1, e2, h⟩
  · refine ⟨rfl, .inl ?_⟩
    rw [← rule_den env r hs rule' he] at hd hd'
    rw [hd] at hd'; injection hd' with hd'; exact hd'.symm
  refine ⟨by simp [e1, e2], ?_⟩
  simp only
  have hdeny : ∀ e, rule'.effect = some e → effectDecision e = .deny := by
    intro e h; rw [e2] at h; injection h with h; subst h; rfl
  rcases h with ⟨hc, ht⟩ | ⟨hc, ht⟩
  · have hT : ∀ b, Applies env r rule.target b → ∃ b', Applies env r rule'.target b' ∧ (b = true → b' = true) := by
      intro b hb
      rcases ht with ht | ⟨ht, -⟩
      · exact ⟨b, ht ▸ hb, id⟩
      · exact target_narrowed ht hb
    have hC : ∀ b, Holds env r rule.condition b → ∃ b', Holds env r rule'.condition b' ∧ (b = true → b' = true) := by
      intro b hb
      rcases hc with hc | hc
      · exact ⟨b, hc ▸ hb, id⟩
      · exact ⟨true, by rw [hc]; rfl, fun _ => rfl⟩
    cases hd' with
    | effect _ _ h => exact .inr (.inr (.inr (hdeny _ h)))
    | targetFalse h1 =>
      cases hd with
      | targetFalse | conditionFalse => exact .inl rfl
      | effect h2 | conditionFails h2 =>
        obtain ⟨b, hb, hb'⟩ := hT _ h2
        rw [hb' rfl] at hb
        cases applies_unique hs h1 hb
      | targetFails h2 =>
        rcases ht with ht | ⟨-, b, hb⟩
        · exact absurd (ht ▸ h1) (h2 _)
        · exact absurd hb (h2 b)
    | conditionFalse h1 h3 =>
      have hcc : rule'.condition = rule.condition := by
        rcases hc with hc | hc
        · exact hc
        · rw [hc] at h3; cases h3
      cases hd with
      | targetFalse | conditionFalse => exact .inl rfl
      | effect _ h2 => rw [hcc] at h3; cases holds_unique hs h2 h3
      | conditionFails _ h2 => rw [hcc] at h3; exact absurd h3 (h2 _)
      | targetFails h2 =>
        rcases ht with ht | ⟨-, b, hb⟩
        · exact absurd (ht ▸ h1) (h2 _)
        · exact absurd hb (h2 b)
    | targetFails h1 =>
      cases hd with
      | targetFalse h2 | conditionFalse h2 | effect h2 | conditionFails h2 =>
        obtain ⟨b, hb, _⟩ := hT _ h2
        exact absurd hb (h1 b)
      | targetFails => exact .inl rfl
    | conditionFails h1 h3 =>
      cases hd with
      | targetFalse => exact .inr (.inr (.inl ⟨rfl, rfl⟩))
      | conditionFalse _ h2 | effect _ h2 =>
        obtain ⟨b, hb, _⟩ := hC _ h2
        exact absurd hb (h3 b)
      | conditionFails | targetFails => exact .inl rfl
  · refine .inr (.inr (.inr ?_))
    have t1 : Applies env r rule'.target true := by rw [ht]; rfl
    have t2 : Holds env r rule'.condition true := by rw [hc]; rfl
    cases hd' with
    | effect _ _ h => exact hdeny _ h
    | targetFalse h1 => cases applies_unique hs h1 t1
    | conditionFalse _ h1 => cases holds_unique hs h1 t2
    | targetFails h1 => exact absurd t1 (h1 _)
    | conditionFails _ h1 => exact absurd t2 (h1 _)

/-- Related pairwise. -/
private inductive Pairwise {α : Type} (R : α → α → Prop) : List α → List α → Prop
  | nil : Pairwise R [] []
  | cons {a a' l l'} : R a a' → Pairwise R l l' → Pairwise R (a :: l) (a' :: l')

private theorem pairwise_mem {α} {R : α → α → Prop} {l l' : List α} (h : Pairwise R l l') :
    (∀ a ∈ l, ∃ a' ∈ l', R a a') ∧ (∀ a' ∈ l', ∃ a ∈ l, R a a') := by
  induction h with
  | nil => simp
  | @cons a a' l l' hr _ ih =>
    constructor
    · intro x hx
      rcases List.mem_cons.1 hx with rfl | hx
      · exact ⟨a', List.mem_cons_self .., hr⟩
      · obtain ⟨y, hy, h⟩ := ih.1 x hx
        exact ⟨y, List.mem_cons_of_mem _ hy, h⟩
    · intro x hx
      rcases List.mem_cons.1 hx with rfl | hx
      · exact ⟨a, List.mem_cons_self .., hr⟩
      · obtain ⟨y, hy, h⟩ := ih.2 x hx
        exact ⟨y, List.mem_cons_of_mem _ hy, h⟩

private theorem zip_parts {α β} (z : List (α × β)) : (z.map Prod.fst).zip (z.map Prod.snd) = z := by
  induction z with
  | nil => rfl
  | cons a z ih => simp [ih]

private theorem first_lower {ds ds' : List Decision} (h : Pairwise Lower ds ds') :
    Lower (Spec.firstApplicable ds) (Spec.firstApplicable ds') := by
  induction h with
  | nil => exact .inr (.inl rfl)
  | @cons d d' ds ds' hr _ ih =>
    have e : ∀ (d : Decision) ds, d ≠ .notApplicable → Spec.firstApplicable (d :: ds) = d := by
      intro d ds h; simp [Spec.firstApplicable, h]
    have e0 : ∀ ds, Spec.firstApplicable (.notApplicable :: ds) = Spec.firstApplicable ds := by
      intro ds; simp [Spec.firstApplicable]
    by_cases hd : d = .notApplicable
    · subst hd
      rw [e0]
      rcases hr with hr | hr | hr | hr
      · cases hr
      · rw [hr, e0]; exact ih
      · rw [hr, e _ _ (by decide)]; exact .inr (.inr (.inl rfl))
      · rw [hr, e _ _ (by decide)]; exact .inr (.inr (.inr rfl))
    · rw [e d ds hd]
      rcases hr with hr | hr | hr | hr
      · exact .inl hr
      · rw [hr, e d _ hd]; exact .inr (.inl rfl)
      · rw [hr, e _ _ (by decide)]; exact .inr (.inr (.inl rfl))
      · rw [hr, e _ _ (by decide)]; exact .inr (.inr (.inr rfl))

private theorem policies_lower (alg : Alg) {ds ds' : List Decision} (h : Pairwise Lower ds ds') :
    Lower (Spec.combinePolicies alg ds) (Spec.combinePolicies alg ds') := by
  obtain ⟨h1, h2⟩ := pairwise_mem h
  have hp : Decision.permit ∈ ds' → Decision.permit ∈ ds := by
    intro hx
    obtain ⟨y, hy, hr⟩ := h2 _ hx
    rcases hr with hr | hr | hr | hr
    · exact hr ▸ hy
    · exact hr ▸ hy
    · cases hr
    · cases hr
  have hb : (Decision.deny ∈ ds ∨ Decision.indeterminate ∈ ds) → (Decision.deny ∈ ds' ∨ Decision.indeterminate ∈ ds') := by
    have : ∀ x ∈ ds, (x = .deny ∨ x = .indeterminate) → (Decision.deny ∈ ds' ∨ Decision.indeterminate ∈ ds') := by
      intro x hx hd
      obtain ⟨y, hy, hr⟩ := h1 x hx
      rcases hr with hr | hr | hr | hr
      · rcases hd with hd | hd <;> rw [hd] at hr <;> cases hr
      · rcases hd with hd | hd
        · exact .inl (hd ▸ hr ▸ hy)
        · exact .inr (hd ▸ hr ▸ hy)
      · exact .inl (hr ▸ hy)
      · exact .inr (hr ▸ hy)
    rintro (h | h)
    · exact this _ h (.inl rfl)
    · exact this _ h (.inr rfl)
  cases alg with
  | firstApplicable => exact first_lower h
  | denyOverrides =>
    simp only [Spec.combinePolicies, policyDenyOverrides]
    clear h1 h2 h
    unfold Lower
    by_cases x1 : Decision.deny ∈ ds ∨ Decision.indeterminate ∈ ds
    · rw [if_pos (hb x1)]; exact .inr (.inr (.inl rfl))
    · rw [if_neg x1]
      by_cases x2 : Decision.permit ∈ ds
      · rw [if_pos x2]; exact .inl rfl
      · rw [if_neg x2]
        split
        · exact .inr (.inr (.inl rfl))
        · rw [if_neg (fun h => x2 (hp h))]; exact .inr (.inl rfl)
  | permitOverrides =>
    simp only [Spec.combinePolicies, policyPermitOverrides]
    clear h1 h2 h
    unfold Lower
    by_cases x2 : Decision.permit ∈ ds
    · rw [if_pos x2]; exact .inl rfl
    · rw [if_neg x2, if_neg (fun h => x2 (hp h))]
      by_cases y1 : Decision.deny ∈ ds'
      · rw [if_pos y1]; exact .inr (.inr (.inl rfl))
      · rw [if_neg y1]
        by_cases y2 : Decision.indeterminate ∈ ds'
        · rw [if_pos y2]; exact .inr (.inr (.inr rfl))
        · rw [if_neg y2, if_neg (fun h => (hb (.inl h)).elim y1 y2), if_neg (fun h => (hb (.inr h)).elim y1 y2)]
          exact .inr (.inl rfl)

private theorem rules_lower (alg : Alg) {z z' : List (Option Effect × Decision)} (h : Pairwise PairStep z z') :
    Lower (Spec.combineRules alg (z.map Prod.fst) (z.map Prod.snd))
      (Spec.combineRules alg (z'.map Prod.fst) (z'.map Prod.snd)) := by
  obtain ⟨h1, h2⟩ := pairwise_mem h
  have hp : Decision.permit ∈ z'.map Prod.snd → Decision.permit ∈ z.map Prod.snd := by
    intro hx
    obtain ⟨x, hx, e⟩ := List.mem_map.1 hx
    obtain ⟨y, hy, -, hr⟩ := h2 _ hx
    refine List.mem_map.2 ⟨y, hy, ?_⟩
    rcases hr with hr | hr | ⟨-, hr⟩ | hr
    · rw [← hr, e]
    · exact hr
    · rw [e] at hr; cases hr
    · rw [e] at hr; cases hr
  have hk : ∀ e d, d ≠ .permit → d ≠ .notApplicable → (e, d) ∈ z → (e, d) ∈ z' ∨ Decision.deny ∈ z'.map Prod.snd := by
    intro e d n1 n2 hx
    obtain ⟨⟨e', d'⟩, hy, he, hr⟩ := h1 _ hx
    simp only at he hr
    rcases hr with hr | hr | ⟨hr, -⟩ | hr
    · rw [← he, ← hr]; exact .inl hy
    · exact absurd hr n1
    · exact absurd hr n2
    · exact .inr (List.mem_map.2 ⟨_, hy, hr⟩)
  have hm : ∀ d, d ≠ .permit → d ≠ .notApplicable → d ∈ z.map Prod.snd →
      d ∈ z'.map Prod.snd ∨ Decision.deny ∈ z'.map Prod.snd := by
    intro d n1 n2 hx
    obtain ⟨⟨e, d0⟩, hx', hd0⟩ := List.mem_map.1 hx
    simp only at hd0
    subst hd0
    exact (hk e d0 n1 n2 hx').imp (fun h => List.mem_map.2 ⟨_, h, rfl⟩) id
  have hd := fun h => (hm .deny (by decide) (by decide) h).elim id id
  have hi := hm .indeterminate (by decide) (by decide)
  cases alg with
  | firstApplicable =>
    simp only [Spec.combineRules]
    refine first_lower ?_
    clear h1 h2 hp hk hm hd hi
    induction h with
    | nil => exact .nil
    | cons hr _ ih =>
      refine .cons ?_ ih
      rcases hr.2 with hr | hr | ⟨-, hr⟩ | hr
      · exact .inr (.inl hr)
      · exact .inl hr
      · exact .inr (.inr (.inr hr))
      · exact .inr (.inr (.inl hr))
  | denyOverrides =>
    have hz := hk (some .deny) .indeterminate (by decide) (by decide)
    simp only [Spec.combineRules, ruleDenyOverrides, zip_parts]
    clear h1 h2 hk hm h
    unfold Lower
    by_cases y1 : Decision.deny ∈ z'.map Prod.snd
    · rw [if_pos y1]; exact .inr (.inr (.inl rfl))
    · rw [if_neg y1, if_neg (fun h => y1 (hd h))]
      by_cases y2 : (some Effect.deny, Decision.indeterminate) ∈ z'
      · rw [if_pos y2]; exact .inr (.inr (.inr rfl))
      · rw [if_neg y2, if_neg (fun h => (hz h).elim y2 y1)]
        by_cases x3 : Decision.permit ∈ z.map Prod.snd
        · rw [if_pos x3]; exact .inl rfl
        · rw [if_neg x3, if_neg (fun h => x3 (hp h))]
          by_cases y4 : Decision.indeterminate ∈ z'.map Prod.snd
          · rw [if_pos y4]; exact .inr (.inr (.inr rfl))
          · rw [if_neg y4, if_neg (fun h => (hi h).elim y4 y1)]; exact .inr (.inl rfl)
  | permitOverrides =>
    have hz := hk (some .permit) .indeterminate (by decide) (by decide)
    simp only [Spec.combineRules, rulePermitOverrides, zip_parts]
    clear h1 h2 hk hm h
    unfold Lower
    by_cases x3 : Decision.permit ∈ z.map Prod.snd
    · rw [if_pos x3]; exact .inl rfl
    · rw [if_neg x3, if_neg (fun h => x3 (hp h))]
      by_cases y2 : (some Effect.permit, Decision.indeterminate) ∈ z'
      · rw [if_pos y2]; exact .inr (.inr (.inr rfl))
      · rw [if_neg y2]
        by_cases y1 : Decision.deny ∈ z'.map Prod.snd
        · rw [if_pos y1]; exact .inr (.inr (.inl rfl))
        · rw [if_neg (fun h => (hz h).elim y2 y1), if_neg y1, if_neg (fun h => y1 (hd h))]
          by_cases y4 : Decision.indeterminate ∈ z'.map Prod.snd
          · rw [if_pos y4]; exact .inr (.inr (.inr rfl))
          · rw [if_neg y4, if_neg (fun h => (hi h).elim y4 y1)]; exact .inr (.inl rfl)

/-- Changes of rules after which `PairStep` relates their decisions. -/
private def RuleSteps (env : Env) (r : Request) (R : Rule → Rule → Prop) : Prop :=
  ∀ rule rule', rule.effect ≠ none → R rule rule' →
    (∀ d d', RuleMeans env r rule d → RuleMeans env r rule' d' → PairStep (rule.effect, d) (rule'.effect, d')) ∧
    rule'.effect = rule.effect

private theorem restricted_steps {env : Env} {r : Request} (hs : StatelessPip (some r)) :
    RuleSteps env r (RuleRestricted fun x => ∃ b, Holds env r x.condition b) := by
  intro rule rule' he h
  refine ⟨fun d d' => rule_step hs he h, ?_⟩
  rcases h with rfl | ⟨h1, h2, -⟩
  · rfl
  · rw [h1, h2]

private theorem widened_steps {env : Env} {r : Request} (hs : StatelessPip (some r)) :
    RuleSteps env r (RuleWidened fun x => ∃ b, Applies env r x.target b) := by
  intro rule rule' he h
  refine ⟨fun d d' => widened_step hs he h, ?_⟩
  rcases h with rfl | ⟨h1, h2, -⟩
  · rfl
  · rw [h1, h2]

private theorem rules_pairs {env : Env} {r : Request} {R : Rule → Rule → Prop} (hR : RuleSteps env r R) {rs rs' : List Rule}
    (h : Each R rs rs') (hc : ∀ rule ∈ rs, rule.effect ≠ none)
    {ds ds' : List Decision} (hd : Each (RuleMeans env r) rs ds) (hd' : Each (RuleMeans env r) rs' ds') :
    ∃ z z', Pairwise PairStep z z' ∧ z.map Prod.fst = rs.map (·.effect) ∧ z.map Prod.snd = ds ∧
      z'.map Prod.fst = rs'.map (·.effect) ∧ z'.map Prod.snd = ds' := by
  induction rs generalizing rs' ds ds' with
  | nil =>
    rw [each_nil] at h hd; subst h hd
    rw [each_nil] at hd'; subst hd'
    exact ⟨[], [], .nil, rfl, rfl, rfl, rfl⟩
  | cons x rs ih =>
    obtain ⟨x', rs', rfl, hx, h⟩ := h
    obtain ⟨d, ds, rfl, h1, hd⟩ := hd
    obtain ⟨d', ds', rfl, h1', hd'⟩ := hd'
    obtain ⟨z, z', hz, k1, k2, k3, k4⟩ := ih h (fun y hy => hc y (List.mem_cons_of_mem _ hy)) hd hd'
    exact ⟨(x.effect, d) :: z, (x'.effect, d') :: z', .cons ((hR x x' (hc x (List.mem_cons_self ..)) hx).1 d d' h1 h1') hz,
      by simp [k1], by simp [k2], by simp [k3], by simp [k4]⟩

mutual
private theorem tree_lower {env : Env} {r : Request} {R : Rule → Rule → Prop} (hs : StatelessPip (some r))
    (hR : RuleSteps env r R) : (p p' : PolicyNode) →
    Rulewise R p p' → Complete p →
    ∀ {d d'}, PolicyMeans env r p d → PolicyMeans env r p' d' → Lower d d'
  | .policy hdr rs, .policy hdr' rs', ha, hc, d, d', h, h' => by
    cases ha with
    | policy hi =>
      cases h with
      | @rules _ _ alg ds ht halg hds =>
        cases h' with
        | @rules _ _ alg' ds' ht' halg' hds' =>
          rw [halg] at halg'; injection halg' with halg'; subst halg'
          obtain ⟨z, z', hz, h1, h2, h3, h4⟩ := rules_pairs hR hi hc.2 hds hds'
          rw [← h1, ← h2, ← h3, ← h4]
          exact rules_lower alg hz
        | policyTargetFalse ht' => cases applies_unique hs ht ht'
        | policyTargetFails ht' => exact absurd ht (ht' _)
      | policyTargetFalse ht =>
        cases h' with
        | rules ht' => cases applies_unique hs ht ht'
        | policyTargetFalse ht' => exact .inr (.inl rfl)
        | policyTargetFails ht' => exact absurd ht (ht' _)
      | policyTargetFails ht =>
        cases h' with
        | rules ht' => exact absurd ht' (ht _)
        | policyTargetFalse ht' => exact absurd ht' (ht _)
        | policyTargetFails ht' => exact .inr (.inl rfl)
  | .policySet hdr ps, .policySet hdr' ps', ha, hc, d, d', h, h' => by
    cases ha with
    | policySet ha =>
      cases h with
      | @policies _ _ alg ds ht halg hds =>
        cases h' with
        | @policies _ _ alg' ds' ht' halg' hds' =>
          rw [halg] at halg'; injection halg' with halg'; subst halg'
          exact policies_lower alg (trees_lower hs hR ps ps' ha hc.2 hds hds')
        | setTargetFalse ht' => cases applies_unique hs ht ht'
        | setTargetFails ht' => exact absurd ht (ht' _)
      | setTargetFalse ht =>
        cases h' with
        | policies ht' => cases applies_unique hs ht ht'
        | setTargetFalse ht' => exact .inr (.inl rfl)
        | setTargetFails ht' => exact absurd ht (ht' _)
      | setTargetFails ht =>
        cases h' with
        | policies ht' => exact absurd ht' (ht _)
        | setTargetFalse ht' => exact absurd ht' (ht _)
        | setTargetFails ht' => exact .inr (.inl rfl)
  | .policy _ _, .policySet _ _, ha, _, _, _, _, _ => by cases ha
  | .policySet _ _, .policy _ _, ha, _, _, _, _, _ => by cases ha
private theorem trees_lower {env : Env} {r : Request} {R : Rule → Rule → Prop} (hs : StatelessPip (some r))
    (hR : RuleSteps env r R) : (ps ps' : List PolicyNode) →
    AllRulewise R ps ps' → AllComplete ps →
    ∀ {ds ds'}, PoliciesMean env r ps ds → PoliciesMean env r ps' ds' → Pairwise Lower ds ds'
  | [], [], _, _, ds, ds', h, h' => by cases h; cases h'; exact .nil
  | p :: ps, p' :: ps', ha, hc, ds, ds', h, h' => by
    cases ha with
    | cons ha has =>
      cases h with
      | cons h hs1 =>
        cases h' with
        | cons h' hs2 => exact .cons (tree_lower hs hR p p' ha hc.1 h h') (trees_lower hs hR ps ps' has hc.2 hs1 hs2)
  | [], _ :: _, ha, _, _, _, _, _ => by cases ha
  | _ :: _, [], ha, _, _, _, _, _ => by cases ha
end

private theorem effects_kept {env : Env} {r : Request} {R : Rule → Rule → Prop} (hR : RuleSteps env r R)
    {rs rs' : List Rule} (h : Each R rs rs')
    (hc : ∀ x ∈ rs, x.effect ≠ none) : ∀ x ∈ rs', x.effect ≠ none := by
  induction rs generalizing rs' with
  | nil => rw [each_nil] at h; subst h; exact fun _ h => nomatch h
  | cons y rs ih =>
    obtain ⟨y', rs', rfl, hy, h⟩ := h
    intro x hx
    rcases List.mem_cons.1 hx with rfl | hx
    · rw [(hR _ _ (hc _ (List.mem_cons_self ..)) hy).2]
      exact hc _ (List.mem_cons_self ..)
    · exact ih h (fun z hz => hc z (List.mem_cons_of_mem _ hz)) x hx

mutual
private theorem complete_kept {env : Env} {r : Request} {R : Rule → Rule → Prop} (hR : RuleSteps env r R) : (p p' : PolicyNode) → Rulewise R p p' → Complete p → Complete p'
  | .policy _ _, .policy _ _, ha, hc => by
    cases ha with
    | policy hi => exact ⟨hc.1, effects_kept hR hi hc.2⟩
  | .policySet _ ps, .policySet _ ps', ha, hc => by
    cases ha with
    | policySet ha => exact ⟨hc.1, allComplete_kept hR ps ps' ha hc.2⟩
  | .policy _ _, .policySet _ _, ha, _ => by cases ha
  | .policySet _ _, .policy _ _, ha, _ => by cases ha
private theorem allComplete_kept {env : Env} {r : Request} {R : Rule → Rule → Prop} (hR : RuleSteps env r R) : (ps ps' : List PolicyNode) → AllRulewise R ps ps' →
    AllComplete ps → AllComplete ps'
  | [], [], _, _ => trivial
  | p :: ps, p' :: ps', ha, hc => by
    cases ha with
    | cons ha has => exact ⟨complete_kept hR p p' ha hc.1, allComplete_kept hR ps ps' has hc.2⟩
  | [], _ :: _, ha, _ => by cases ha
  | _ :: _, [], ha, _ => by cases ha
end

private theorem each_imp {R R' : Rule → Rule → Prop} (hT : ∀ x x', R x x' → R' x x') {rs rs' : List Rule}
    (h : Each R rs rs') : Each R' rs rs' := by
  induction rs generalizing rs' with
  | nil => exact h
  | cons y rs ih =>
    obtain ⟨y', rs', rfl, hy, h⟩ := h
    exact ⟨y', rs', rfl, hT _ _ hy, ih h⟩

mutual
private theorem rulewise_imp {R R' : Rule → Rule → Prop} (hT : ∀ x x', R x x' → R' x x') : (p p' : PolicyNode) →
    Rulewise R p p' → Rulewise R' p p'
  | .policy _ _, .policy _ _, ha => by
    cases ha with
    | policy hi => exact .policy (each_imp hT hi)
  | .policySet _ ps, .policySet _ ps', ha => by
    cases ha with
    | policySet ha => exact .policySet (allRulewise_imp hT ps ps' ha)
  | .policy _ _, .policySet _ _, ha => by cases ha
  | .policySet _ _, .policy _ _, ha => by cases ha
private theorem allRulewise_imp {R R' : Rule → Rule → Prop} (hT : ∀ x x', R x x' → R' x x') : (ps ps' : List PolicyNode) →
    AllRulewise R ps ps' → AllRulewise R' ps ps'
  | [], [], _ => .nil
  | p :: ps, p' :: ps', ha => by
    cases ha with
    | cons ha has => exact .cons (rulewise_imp hT p p' ha) (allRulewise_imp hT ps ps' has)
  | [], _ :: _, ha => by cases ha
  | _ :: _, [], ha => by cases ha
end

/-- The two theorems below have this in common. -/
private theorem steps_lower (env : Env) (p p' : PolicyNode) (r : Request) {R : Rule → Rule → Prop}
    (hR : RuleSteps env r R) (h : Rulewise R p p') (hc : Complete p)
    (hs : StatelessPip (some r)) {w w' : World} (hw : History env.re w) (hw' : History env.re w') :
    ∃ d d', (pdpEvaluate env (some p) (some r) w).1 = .ok { results := [{ decision := d, status := .ok }] } ∧
      (pdpEvaluate env (some p') (some r) w').1 = .ok { results := [{ decision := d', status := .ok }] } ∧
      (d = .permit ∨ d' = d ∨ d' = .deny ∨ d' = .indeterminate) := by
  obtain ⟨d, hd, h1⟩ := C64_pdp env r hs p hc hw
  obtain ⟨d', hd', h2⟩ := C64_pdp env r hs p' (complete_kept hR p p' h hc) hw'
  exact ⟨d, d', h1, h2, tree_lower hs hR p p' h hc ((hd d).2 rfl) ((hd' d').2 rfl)⟩

private theorem permit_back {x y : Except Exc Response × World} (h : ∃ d d',
      x.1 = .ok { results := [{ decision := d, status := .ok }] } ∧
      y.1 = .ok { results := [{ decision := d', status := .ok }] } ∧
      (d = .permit ∨ d' = d ∨ d' = .deny ∨ d' = .indeterminate))
    (hp : y.1 = .ok { results := [{ decision := .permit, status := .ok }] }) :
    x.1 = .ok { results := [{ decision := .permit, status := .ok }] } := by
  obtain ⟨d, d', h1, h2, h3⟩ := h
  rw [hp] at h2
  injection h2 with h2
  injection h2 with h2
  injection h2 with h2 _
  injection h2 with h2
  subst h2
  rcases h3 with h3 | h3 | h3 | h3
  · rw [h1, h3]
  · rw [h1, ← h3]
  · cases h3
  · cases h3

/-- **C110, partial.** The full statement is: restricting Permit rules anywhere in a policy, by adding
conditions and narrowing targets, never grants; a decision other than Permit stays or becomes Deny or
Indeterminate. Proved if the conditions of the rules whose targets are narrowed can be evaluated for the
request. What is missing: rules with failing conditions, for which it is false (`C110_violated`). -/
theorem C110_partial (env : Env) (p p' : PolicyNode) (r : Request)
    (h : Restricted (fun rule => ∃ b, Holds env r rule.condition b) p p') (hc : Complete p)
    (hs : StatelessPip (some r)) {w w' : World} (hw : History env.re w) (hw' : History env.re w') :
    ∃ d d', (pdpEvaluate env (some p) (some r) w).1 = .ok { results := [{ decision := d, status := .ok }] } ∧
      (pdpEvaluate env (some p') (some r) w').1 = .ok { results := [{ decision := d', status := .ok }] } ∧
      (d = .permit ∨ d' = d ∨ d' = .deny ∨ d' = .indeterminate) := by
  exact steps_lower env p p' r (restricted_steps hs) h hc hs hw hw'

/-- **C110 without conditions on the request.** Adding conditions to Permit rules without one, and
narrowing the targets of Permit rules without condition (also both), never grants: for every request,
a Permit after the change was a Permit before. -/
theorem C110_never_grants (env : Env) (p p' : PolicyNode) (r : Request)
    (h : Restricted (fun rule => rule.condition = none) p p') (hc : Complete p)
    (hs : StatelessPip (some r)) {w w' : World} (hw : History env.re w) (hw' : History env.re w')
    (hp : (pdpEvaluate env (some p') (some r) w').1 = .ok { results := [{ decision := .permit, status := .ok }] }) :
    (pdpEvaluate env (some p) (some r) w).1 = .ok { results := [{ decision := .permit, status := .ok }] } := by
  refine permit_back (C110_partial env p p' r (rulewise_imp (fun x x' hx => ?_) p p' h) hc hs hw hw') hp
  exact hx.imp id fun ⟨a, b, c, d⟩ => ⟨a, b, c, d.imp id fun ⟨e, f⟩ => ⟨e, true, by rw [f]; rfl⟩⟩

/-- **C111, partial.** The full statement is: widening Deny rules anywhere in a policy, by dropping
conditions, match elements and sections of targets, never grants; a decision other than Permit stays or
becomes Deny or Indeterminate. Proved if the targets that are widened can be evaluated for the request (or
the rule now always denies). What is missing: failing targets, for which it is false (`C111_violated`). -/
theorem C111_partial (env : Env) (p p' : PolicyNode) (r : Request)
    (h : Widened (fun rule => ∃ b, Applies env r rule.target b) p p') (hc : Complete p)
    (hs : StatelessPip (some r)) {w w' : World} (hw : History env.re w) (hw' : History env.re w') :
    ∃ d d', (pdpEvaluate env (some p) (some r) w).1 = .ok { results := [{ decision := d, status := .ok }] } ∧
      (pdpEvaluate env (some p') (some r) w').1 = .ok { results := [{ decision := d', status := .ok }] } ∧
      (d = .permit ∨ d' = d ∨ d' = .deny ∨ d' = .indeterminate) :=
  steps_lower env p p' r (widened_steps hs) h hc hs hw hw'

/-- **C111 without conditions on the request.** Dropping the conditions of Deny rules, alone or together
with their targets, never grants: for every request, a Permit after the change was a Permit before. -/
theorem C111_never_grants (env : Env) (p p' : PolicyNode) (r : Request)
    (h : Widened (fun _ => False) p p') (hc : Complete p)
    (hs : StatelessPip (some r)) {w w' : World} (hw : History env.re w) (hw' : History env.re w')
    (hp : (pdpEvaluate env (some p') (some r) w').1 = .ok { results := [{ decision := .permit, status := .ok }] }) :
    (pdpEvaluate env (some p) (some r) w).1 = .ok { results := [{ decision := .permit, status := .ok }] } := by
  refine permit_back (C111_partial env p p' r (rulewise_imp (fun x x' hx => ?_) p p' h) hc hs hw hw') hp
  exact hx.imp id fun ⟨a, b, c⟩ => ⟨a, b, c.imp (fun ⟨c, d⟩ => ⟨c, d.imp id fun ⟨_, f⟩ => f.elim⟩) id⟩

section NonVacuity
open Samples

/-- A Permit rule whose condition cannot be evaluated. -/
def Samples.failingCondition (t : Option Target) : Rule :=
  { effect := some .permit, target := t, condition := some { expression := some (.designator .subject missingDes) } }

/-- **C110, violated.** A Permit rule for everybody, with a condition that cannot be evaluated, is
restricted to guests. The policy was Indeterminate for an administrator and permits now. -/
theorem C110_violated :
    ∃ (p p' : PolicyNode), Restricted (fun _ => True) p p' ∧ Complete p ∧ StatelessPip (some req) ∧
      (pdpEvaluate Samples.env (some p) (some req) start).1
        = .ok { results := [{ decision := .indeterminate, status := .ok }] } ∧
      (pdpEvaluate Samples.env (some p') (some req) start).1
        = .ok { results := [{ decision := .permit, status := .ok }] } := by
  refine ⟨.policy (hdr .firstApplicable) [failingCondition none, always .permit],
    .policy (hdr .firstApplicable) [failingCondition (some (roleTarget "guest")), always .permit],
    .policy ⟨_, _, rfl, .inr ⟨rfl, rfl, .inl rfl, .inr ⟨trivial, trivial⟩⟩, _, _, rfl, .inl rfl, rfl⟩, ?_, ?_, rfl, rfl⟩
  · simp [Complete, hdr, failingCondition, always]
  · intro _ hr pip h; injection hr with hr; subst hr; simp [req] at h

/-- The hypotheses of `C110_never_grants` hold of a policy set in which a rule is narrowed to
administrators that may read, and the decision stays Permit. -/
example :
    let t : Target := { roleTarget "admin" with
      subjects := [{ matches_ := [roleMatch "admin", roleMatch "staff"] }], actions := [{ matches_ := [actMatch "read"] }] }
    let p := PolicyNode.policySet (hdr .denyOverrides) [.policy (hdr .denyOverrides) [roleRule .deny "guest", roleRule .permit "admin"]]
    let p' := PolicyNode.policySet (hdr .denyOverrides)
      [.policy (hdr .denyOverrides) [roleRule .deny "guest", { roleRule .permit "admin" with target := some t }]]
    Restricted (fun rule => rule.condition = none) p p' ∧ Complete p ∧ StatelessPip (some req) ∧ History Samples.env.re start ∧
      (pdpEvaluate Samples.env (some p') (some req) start).1 = .ok { results := [{ decision := .permit, status := .ok }] } := by
  refine ⟨.policySet (.cons (.policy ⟨_, _, rfl, .inl rfl, _, _, rfl, .inr ⟨rfl, rfl, .inl rfl, .inr ⟨⟨.inr ?_, .inl rfl, .inl rfl, .inl rfl⟩, rfl⟩⟩, rfl⟩) .nil),
    ?_, ?_, .start, rfl⟩
  · exact ⟨_, _, rfl, .keep (.add trivial .nil), rfl⟩
  · simp [Complete, AllComplete, hdr, roleRule]
  · intro _ hr pip h; injection hr with hr; subst hr; simp [req] at h

/-- Narrowing does revoke: restricted to guests the same rule no longer applies. -/
example : let p := PolicyNode.policy (hdr .denyOverrides) [always .permit]
    let p' := PolicyNode.policy (hdr .denyOverrides) [roleRule .permit "guest"]
    Restricted (fun rule => rule.condition = none) p p' ∧
      (pdpEvaluate Samples.env (some p) (some req) start).1 = .ok { results := [{ decision := .permit, status := .ok }] } ∧
      (pdpEvaluate Samples.env (some p') (some req) start).1
        = .ok { results := [{ decision := .notApplicable, status := .ok }] } :=
  ⟨.policy ⟨_, _, rfl, .inr ⟨rfl, rfl, .inl rfl, .inr ⟨trivial, rfl⟩⟩, rfl⟩, rfl, rfl⟩

/-- Narrowing a Deny rule may grant, of course. -/
example :
    (pdpEvaluate Samples.env (some (.policy (hdr .denyOverrides) [always .deny, always .permit])) (some req) start).1
      = .ok { results := [{ decision := .deny, status := .ok }] } ∧
    (pdpEvaluate Samples.env (some (.policy (hdr .denyOverrides) [roleRule .deny "guest", always .permit])) (some req) start).1
      = .ok { results := [{ decision := .permit, status := .ok }] } := ⟨rfl, rfl⟩

/-- A target with these match elements for subjects. -/
def Samples.subjectTarget (ms : List Match) : Target :=
  { subjects := [{ matches_ := ms }], resources := [], actions := [], environments := [] }

/-- **C111, violated.** A Deny rule for guests whose target also has a match element that cannot be
evaluated is widened by dropping that element. The policy was Indeterminate for an administrator and permits
now. -/
theorem C111_violated :
    ∃ (p p' : PolicyNode), Widened (fun _ => True) p p' ∧ Complete p ∧ StatelessPip (some req) ∧
      (pdpEvaluate Samples.env (some p) (some req) start).1
        = .ok { results := [{ decision := .indeterminate, status := .ok }] } ∧
      (pdpEvaluate Samples.env (some p') (some req) start).1
        = .ok { results := [{ decision := .permit, status := .ok }] } := by
  refine ⟨.policy (hdr .denyOverrides)
      [{ roleRule .deny "guest" with target := some (subjectTarget [errMatch, roleMatch "guest"]) }, always .permit],
    .policy (hdr .denyOverrides) [roleRule .deny "guest", always .permit],
    .policy ⟨_, _, rfl, .inr ⟨rfl, rfl, .inl ⟨.inl rfl, .inr ⟨⟨.inr ?_, .inl rfl, .inl rfl, .inl rfl⟩, trivial⟩⟩⟩,
      _, _, rfl, .inl rfl, rfl⟩, ?_, ?_, rfl, rfl⟩
  · exact ⟨_, _, rfl, .add trivial (.keep .nil), rfl⟩
  · simp [Complete, hdr, roleRule, always]
  · intro _ hr pip h; injection hr with hr; subst hr; simp [req] at h

/-- The hypotheses of `C111_partial` hold of a policy set in which a Deny rule for administrators that are
guests is widened to all administrators. The decision, Permit, becomes Deny. -/
example :
    let p := PolicyNode.policySet (hdr .permitOverrides) [.policy (hdr .denyOverrides)
      [{ roleRule .deny "admin" with target := some (subjectTarget [roleMatch "admin", roleMatch "guest"]) },
        roleRule .permit "admin"]]
    let p' := PolicyNode.policySet (hdr .permitOverrides) [.policy (hdr .denyOverrides)
      [{ roleRule .deny "admin" with target := some (subjectTarget [roleMatch "admin"]) }, roleRule .permit "admin"]]
    Widened (fun rule => ∃ b, Applies Samples.env req rule.target b) p p' ∧ Complete p ∧ StatelessPip (some req) ∧
      History Samples.env.re start ∧
      (pdpEvaluate Samples.env (some p) (some req) start).1 = .ok { results := [{ decision := .permit, status := .ok }] } ∧
      (pdpEvaluate Samples.env (some p') (some req) start).1 = .ok { results := [{ decision := .deny, status := .ok }] } := by
  have hs : StatelessPip (some req) := by intro _ hr pip h; injection hr with hr; subst hr; simp [req] at h
  refine ⟨.policySet (.cons (.policy ⟨_, _, rfl,
      .inr ⟨rfl, rfl, .inl ⟨.inl rfl, .inr ⟨⟨.inr ?_, .inl rfl, .inl rfl, .inl rfl⟩, false, ?_⟩⟩⟩,
      _, _, rfl, .inl rfl, rfl⟩) .nil), ?_, hs, .start, rfl, rfl⟩
  · exact ⟨_, _, rfl, .keep (.add trivial .nil), rfl⟩
  · exact (target_den Samples.env req hs _ _).1 rfl
  · simp [Complete, AllComplete, hdr, roleRule]

/-- The hypotheses of `C111_never_grants` hold of a policy whose Deny rule loses a false condition. The
decision was Permit under permit-overrides and still is. -/
example :
    let c : Condition := { expression := some (.apply (some .not) [.apply (some .and) []]) }
    let p := PolicyNode.policy (hdr .permitOverrides) [{ always .deny with condition := some c }, roleRule .permit "admin"]
    let p' := PolicyNode.policy (hdr .permitOverrides) [always .deny, roleRule .permit "admin"]
    Widened (fun _ => False) p p' ∧ Complete p ∧ StatelessPip (some req) ∧ History Samples.env.re start ∧
      (pdpEvaluate Samples.env (some p) (some req) start).1 = .ok { results := [{ decision := .permit, status := .ok }] } ∧
      (pdpEvaluate Samples.env (some p') (some req) start).1 = .ok { results := [{ decision := .permit, status := .ok }] } := by
  refine ⟨.policy ⟨_, _, rfl, .inr ⟨rfl, rfl, .inl ⟨.inr rfl, .inl rfl⟩⟩, _, _, rfl, .inl rfl, rfl⟩, ?_, ?_, .start, rfl, rfl⟩
  · simp [Complete, hdr, roleRule, always]
  · intro _ hr pip h; injection hr with hr; subst hr; simp [req] at h

end NonVacuity
end Xacml
