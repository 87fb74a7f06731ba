import Verif.Props.Semantics
import Verif.Lemmas.Transport
import Verif.Spec.MoreAttributes
import Verif.Spec.Refactor
import Verif.Spec.Samples

/-!
# C104: more attributes never revoke what a policy that only looks for attributes grants
-/
namespace Xacml
open Spec

theorem proper_typed {env : Env} {dt : Option String} {v : AttrVal} (h : ProperValue env dt v) : WellTyped env.classMap dt v := by
  obtain ⟨t, c, _, h1, h2, h3, _⟩ := h
  exact ⟨t, c, h1, h2, h3⟩

section
variable {env : Env} {r r' : Request}

private theorem func_unique {re : String → Except Exc (String → Bool)} {env : Env} (he : env.re = re) {f : Func} {xs : List PyVal}
    {x y : PyVal} (hx : FuncMeans re f xs x) (hy : FuncMeans re f xs y) : x = y := by
  subst he
  rw [← func_den] at hx hy
  rw [hx] at hy
  injection hy

private theorem each_both {α β} {R : α → β → Prop} {l : List α} {l' : List β} (h : Each R l l') :
    (∀ a ∈ l, ∃ b ∈ l', R a b) ∧ ∀ b ∈ l', ∃ a ∈ l, R a b := by
  induction l generalizing l' with
  | nil => rw [each_nil] at h; subst h; simp
  | cons a l ih =>
    obtain ⟨b, bs, rfl, h1, h2⟩ := h
    obtain ⟨i1, i2⟩ := ih h2
    constructor
    · intro x hx
      rcases List.mem_cons.1 hx with rfl | hx
      · exact ⟨b, by simp, h1⟩
      · obtain ⟨y, hy, h⟩ := i1 x hx; exact ⟨y, by simp [hy], h⟩
    · intro x hx
      rcases List.mem_cons.1 hx with rfl | hx
      · exact ⟨a, by simp, h1⟩
      · obtain ⟨y, hy, h⟩ := i2 x hx; exact ⟨y, by simp [hy], h⟩

private theorem readBy_iff {m : Match} {l : Reading} (h : ReadBy m l) (env : Env) (r : Request) (vs : List AttrVal) :
    MatchValues env r m vs ↔ ReadsValues env r l vs := by
  rcases h with ⟨cat, d, hd, rfl⟩ | ⟨hd, s, hs, rfl⟩
  · constructor
    · rintro (⟨c, e, h, hm⟩ | ⟨h, _⟩)
      · rw [hd] at h; injection h with h; injection h with h1 h2; subst h1 h2; exact hm
      · rw [hd] at h; cases h
    · exact fun h => .inl ⟨cat, d, hd, h⟩
  · simp [MatchValues, hd, hs, ReadsValues]

private theorem inMatch_of {m : Match} {l : Reading} (h : ReadBy m l) : InMatch l m := by
  rcases h with h | ⟨_, h⟩
  · exact .inl h
  · exact .inr h

private theorem match_more {m : Match} (hm : DefiniteMatch env m) (hl : ∀ l, InMatch l m → SeesMore env r r' l) :
    ∃ b', MatchMeans env r' m b' ∧ ∀ b, MatchMeans env r m b → b = true → b' = true := by
  obtain ⟨l, f, hr, hf, hd⟩ := hm
  obtain ⟨vs', h1, h2, h3⟩ := hl l (inMatch_of hr)
  obtain ⟨xs', hx⟩ := each_total (R := MatchesValue env m) (l := vs') fun v hv => by
    obtain ⟨b, hb⟩ := hd v (h2 v hv)
    exact ⟨_, f, hf, hb, fun _ u => by simp⟩
  have hm' : ∃ b', b' = true ↔ ∃ x ∈ xs', ¬ RegardedFalse x := by
    rcases Classical.em (∃ x ∈ xs', ¬ RegardedFalse x) with h | h
    · exact ⟨true, by simp [h]⟩
    · exact ⟨false, by simp only [h]; simp⟩
  obtain ⟨b', hb'⟩ := hm'
  refine ⟨b', ⟨vs', xs', (readBy_iff hr env r' vs').2 h1, hx, hb'⟩, ?_⟩
  rintro b ⟨vs, xs, g1, g2, g3⟩ rfl
  obtain ⟨x, hxm, hxt⟩ := g3.1 rfl
  obtain ⟨v, hv, f2, hf2, hfx, _⟩ := (each_both g2).2 x hxm
  obtain ⟨y, hy, f3, hf3, hfy, _⟩ := (each_both hx).1 v (h3 vs ((readBy_iff hr env r vs).1 g1) v hv)
  rw [hf2] at hf3
  injection hf3 with hf3
  subst hf3
  rw [func_unique (env := env) rfl hfx hfy] at hxt
  exact hb'.2 ⟨y, hy, hxt⟩

/-- One list of truth values is at least as true as another. -/
private def AtLeast (bs bs' : List Bool) : Prop := Each (fun b b' : Bool => b = true → b' = true) bs bs'

private theorem section_more {cs : List TargetChild} (hm : ∀ c ∈ cs, ∀ m ∈ c.matches_, DefiniteMatch env m)
    (hl : ∀ c ∈ cs, ∀ m ∈ c.matches_, ∀ l, InMatch l m → SeesMore env r r' l) :
    ∃ es', SectionMeans env r' cs es' ∧ ∀ es, SectionMeans env r cs es → SectionMatches es → SectionMatches es' := by
  obtain ⟨es', h⟩ := each_total (l := cs)
    (R := fun c bs' => Each (MatchMeans env r') c.matches_ bs' ∧ ∀ bs, Each (MatchMeans env r) c.matches_ bs → AtLeast bs bs')
    fun c hc => by
      obtain ⟨bs', h⟩ := each_total (l := c.matches_)
        (R := fun m b' => MatchMeans env r' m b' ∧ ∀ b, MatchMeans env r m b → b = true → b' = true)
        fun m hm' => match_more (hm c hc m hm') (hl c hc m hm')
      refine ⟨bs', each_imp (fun _ _ h => h.1) h, ?_⟩
      clear hm hl
      generalize c.matches_ = ms at *
      intro bs hbs
      induction ms generalizing bs bs' with
      | nil => rw [each_nil] at h hbs; subst h hbs; exact rfl
      | cons m ms ih =>
        obtain ⟨b', bs', rfl, h1, h2⟩ := h
        obtain ⟨b, bs, rfl, g1, g2⟩ := hbs
        exact ⟨b', bs', rfl, h1.2 b g1, ih bs' h2 bs g2⟩
  refine ⟨es', each_imp (fun _ _ h => h.1) h, ?_⟩
  intro es hes hmat
  have hal : Each AtLeast es es' := by
    clear hm hl hmat
    induction cs generalizing es es' with
    | nil => unfold SectionMeans at hes; rw [each_nil] at h hes; subst h hes; exact rfl
    | cons c cs ih =>
      obtain ⟨e', es', rfl, h1, h2⟩ := h
      obtain ⟨e, es, rfl, g1, g2⟩ := hes
      exact ⟨e', es', rfl, h1.2 e g1, ih es' h2 es g2⟩
  rcases hmat with rfl | ⟨en, hen, hall⟩
  · rw [each_nil] at hal; exact .inl hal
  · obtain ⟨en', hen', hal'⟩ := (each_both hal).1 en hen
    refine .inr ⟨en', hen', fun b hb => ?_⟩
    obtain ⟨b0, hb0, hbb⟩ := (each_both hal').2 b hb
    exact hbb (hall b0 hb0)

private theorem target_more {t : Option Target} (ht : DefiniteTarget env t) (hl : ∀ l, InTarget l t → SeesMore env r r' l) :
    ∃ b', Applies env r' t b' ∧ ∀ b, Applies env r t b → b = true → b' = true := by
  cases t with
  | none => exact ⟨true, rfl, fun _ _ _ => rfl⟩
  | some t =>
    have sec : ∀ cs, (∀ c ∈ cs, c ∈ t.subjects ++ t.resources ++ t.actions ++ t.environments) →
        ∃ es', SectionMeans env r' cs es' ∧ ∀ es, SectionMeans env r cs es → SectionMatches es → SectionMatches es' := fun cs hcs =>
      section_more (fun c hc m hm => ht t rfl m (List.mem_flatMap.2 ⟨c, hcs c hc, hm⟩))
        fun c hc m hm l hl' => hl l ⟨t, rfl, c, hcs c hc, m, hm, hl'⟩
    obtain ⟨ss, h1, g1⟩ := sec t.subjects (by simp +contextual)
    obtain ⟨rs, h2, g2⟩ := sec t.resources (by simp +contextual)
    obtain ⟨as, h3, g3⟩ := sec t.actions (by simp +contextual)
    obtain ⟨es, h4, g4⟩ := sec t.environments (by simp +contextual)
    have : ∃ b', b' = true ↔ SectionMatches ss ∧ SectionMatches rs ∧ SectionMatches as ∧ SectionMatches es := by
      rcases Classical.em (SectionMatches ss ∧ SectionMatches rs ∧ SectionMatches as ∧ SectionMatches es) with h | h
      · exact ⟨true, by simp [h]⟩
      · exact ⟨false, by simp only [h]; simp⟩
    obtain ⟨b', hb'⟩ := this
    refine ⟨b', ⟨ss, rs, as, es, h1, h2, h3, h4, hb'⟩, ?_⟩
    rintro b ⟨ss0, rs0, as0, es0, k1, k2, k3, k4, kb⟩ hb
    obtain ⟨m1, m2, m3, m4⟩ := kb.1 hb
    exact hb'.2 ⟨g1 _ k1 m1, g2 _ k2 m2, g3 _ k3 m3, g4 _ k4 m4⟩

private theorem values_mean (vs : List AttrVal) : MeansAll env r (vs.map .value) (vs.map .av) := by
  induction vs with
  | nil => exact .nil
  | cons v vs ih => exact .cons .value ih

private theorem values_only {vs : List AttrVal} {xs : List PyVal} (h : MeansAll env r (vs.map .value) xs) : xs = vs.map .av := by
  induction vs generalizing xs with
  | nil => cases h; rfl
  | cons v vs ih =>
    cases h with
    | cons h1 h2 => cases h1; rw [ih h2]; rfl

private theorem av_inj {vs ws : List AttrVal} (h : vs.map PyVal.av = ws.map PyVal.av) : vs = ws := by
  induction vs generalizing ws with
  | nil => cases ws with
    | nil => rfl
    | cons => cases h
  | cons v vs ih => cases ws with
    | nil => cases h
    | cons w ws =>
      simp only [List.map_cons, List.cons.injEq, PyVal.av.injEq] at h
      rw [h.1, ih h.2]

private theorem bag_more {t : AVClass} {e : Expr} (he : BagExpr env t e) (hl : ∀ l, InExpr l e → SeesMore env r r' l) :
    ∃ c vs', c.uid = t.uid ∧ Means env r' e (.bag ⟨some c, vs'⟩) ∧
      ∀ x, Means env r e x → ∃ vs, x = .bag ⟨some c, vs⟩ ∧ ∀ v ∈ vs, v ∈ vs' := by
  cases he with
  | @designator cat d c h1 h2 =>
    obtain ⟨vs', g1, _, g3⟩ := hl _ (.designator rfl)
    refine ⟨c, vs', h2, h1 ▸ .designator g1, fun x hx => ?_⟩
    cases hx with
    | designator k => exact ⟨_, by rw [h1], g3 _ k⟩
  | @selector s c h1 h2 =>
    obtain ⟨vs', g1, _, g3⟩ := hl _ (.selector rfl)
    refine ⟨c, vs', h2, h1 ▸ .selector g1, fun x hx => ?_⟩
    cases hx with
    | selector k => exact ⟨_, by rw [h1], g3 _ k⟩
  | @written vs h =>
    refine ⟨t, vs, rfl, .apply (values_mean vs) (.bag h), fun x hx => ?_⟩
    cases hx with
    | apply k1 k2 =>
      rw [values_only k1] at k2
      rw [func_unique (env := env) rfl k2 (.bag h)]
      exact ⟨vs, rfl, fun _ h => h⟩

private theorem searching_more {e : Expr} (he : Searching env e) (hl : ∀ l, InExpr l e → SeesMore env r r' l) :
    ∃ b' : Bool, Means env r' e (.native (.bool b')) ∧
      ∀ x, Means env r e x → ∃ b : Bool, x = .native (.bool b) ∧ (b = true → b' = true) := by
  induction he with
  | @common t a b ha hb =>
    obtain ⟨c, vs', hc, h1, g1⟩ := bag_more ha fun l h => hl l (.apply (by simp) h)
    obtain ⟨c2, ws', hc2, h2, g2⟩ := bag_more hb fun l h => hl l (.apply (by simp) h)
    have : ∃ b' : Bool, b' = true ↔ ∃ v ∈ vs', ∃ w ∈ ws', SameValue v.value w.value := by
      rcases Classical.em (∃ v ∈ vs', ∃ w ∈ ws', SameValue v.value w.value) with h | h
      · exact ⟨true, by simp only [h]⟩
      · exact ⟨false, by simp only [h]; simp⟩
    obtain ⟨b', hb'⟩ := this
    refine ⟨b', .apply (.cons h1 (.cons h2 .nil)) (.atLeastOneMemberOf hc hc2 hb'), fun x hx => ?_⟩
    cases hx with
    | apply k1 k2 =>
      cases k1 with
      | cons k3 k4 =>
        cases k4 with
        | cons k5 k6 =>
          cases k6
          obtain ⟨vs, rfl, hv⟩ := g1 _ k3
          obtain ⟨ws, rfl, hw⟩ := g2 _ k5
          cases k2 with
          | atLeastOneMemberOf _ _ hr =>
            refine ⟨_, rfl, fun hb => ?_⟩
            obtain ⟨v, hvm, w, hwm, hs⟩ := hr.1 hb
            exact hb'.2 ⟨v, hv v hvm, w, hw w hwm, hs⟩
  | @and args hargs ih =>
    have key : ∀ es : List Expr, (∀ e ∈ es, e ∈ args) → ∃ bs' : List Bool, MeansAll env r' es (bs'.map (.native ∘ .bool)) ∧
        ∀ xs, MeansAll env r es xs → ∃ bs : List Bool, xs = bs.map (.native ∘ .bool) ∧ AtLeast bs bs' := by
      intro es
      induction es with
      | nil => exact fun _ => ⟨[], .nil, fun xs hxs => by cases hxs; exact ⟨[], rfl, rfl⟩⟩
      | cons e es ihes =>
        intro hes
        obtain ⟨b', h1, g1⟩ := ih e (hes e (by simp)) fun l h => hl l (.apply (hes e (by simp)) h)
        obtain ⟨bs', h2, g2⟩ := ihes fun x hx => hes x (by simp [hx])
        refine ⟨b' :: bs', .cons h1 h2, fun xs hxs => ?_⟩
        cases hxs with
        | cons k1 k2 =>
          obtain ⟨b, rfl, hb⟩ := g1 _ k1
          obtain ⟨bs, rfl, hbs⟩ := g2 _ k2
          exact ⟨b :: bs, rfl, b', bs', rfl, hb, hbs⟩
    obtain ⟨bs', h1, g1⟩ := key args fun _ h => h
    have : ∃ b' : Bool, b' = true ↔ ∀ b ∈ bs', b = true := by
      rcases Classical.em (∀ b ∈ bs', b = true) with h | h
      · exact ⟨true, by simp only [iff_true_intro h]⟩
      · exact ⟨false, by simp only [h]; simp⟩
    obtain ⟨b', hb'⟩ := this
    refine ⟨b', .apply h1 (.and hb'), fun x hx => ?_⟩
    cases hx with
    | apply k1 k2 =>
      obtain ⟨bs, rfl, hbs⟩ := g1 _ k1
      have : ∃ b : Bool, b = true ↔ ∀ b ∈ bs, b = true := by
        rcases Classical.em (∀ b ∈ bs, b = true) with h | h
        · exact ⟨true, by simp only [iff_true_intro h]⟩
        · exact ⟨false, by simp only [h]; simp⟩
      obtain ⟨b, hb⟩ := this
      refine ⟨b, func_unique (env := env) rfl k2 (.and hb), fun ht => hb'.2 fun y hy => ?_⟩
      obtain ⟨y0, hy0, hyy⟩ := (each_both hbs).2 y hy
      exact hyy (hb.1 ht y0 hy0)

private theorem false_bool (b : Bool) : ¬ RegardedFalse (.native (.bool b)) ↔ b = true := by
  cases b
  · simp [RegardedFalse.no]
  · simp only [iff_true]; intro h; cases h

private theorem holds_more {c : Option Condition} (hc : ∀ a, c = some a → ∃ x, a.expression = some x ∧ Searching env x)
    (hl : ∀ a e, c = some a → a.expression = some e → ∀ l, InExpr l e → SeesMore env r r' l) :
    ∃ b', Holds env r' c b' ∧ ∀ b, Holds env r c b → b = true → b' = true := by
  cases c with
  | none => exact ⟨true, rfl, fun _ _ _ => rfl⟩
  | some a =>
    obtain ⟨e, he, hs⟩ := hc a rfl
    obtain ⟨b', h1, h2⟩ := searching_more hs (hl a e rfl he)
    refine ⟨b', ⟨e, _, he, h1, (false_bool b').symm⟩, ?_⟩
    rintro b ⟨e2, x, he2, hx, hb⟩ ht
    rw [he] at he2
    injection he2 with he2
    subst he2
    obtain ⟨b0, rfl, hb0⟩ := h2 x hx
    exact hb0 ((false_bool b0).1 (hb.1 ht))

/-- The second decision is the effect or NotApplicable, and the effect if the first one is. -/
private def Kept (e : Effect) (d d' : Decision) : Prop :=
  (d' = effectDecision e ∨ d' = .notApplicable) ∧ (d = effectDecision e → d' = effectDecision e)

private theorem effect_ne (e : Effect) : effectDecision e ≠ .notApplicable ∧ effectDecision e ≠ .indeterminate := by
  cases e <;> simp [effectDecision]

private theorem rule_more {e : Effect} {rule : Rule} (hr : SearchingRule env e rule)
    (hl : ∀ l, InRule l rule → SeesMore env r r' l) :
    ∃ d', RuleMeans env r' rule d' ∧ ∀ d, RuleMeans env r rule d → Kept e d d' := by
  obtain ⟨he, ht, hc⟩ := hr
  obtain ⟨b', h1, g1⟩ := target_more ht fun l h => hl l (.inl h)
  obtain ⟨c', h2, g2⟩ := holds_more hc fun a x ha hx l h => hl l (.inr ⟨a, x, ha, hx, h⟩)
  have hne := effect_ne e
  have inv : ∀ d, RuleMeans env r rule d → d = effectDecision e → b' = true ∧ c' = true := by
    intro d hd hde
    cases hd with
    | effect k1 k2 _ => exact ⟨g1 _ k1 rfl, g2 _ k2 rfl⟩
    | targetFalse => exact absurd hde.symm hne.1
    | conditionFalse => exact absurd hde.symm hne.1
    | targetFails => exact absurd hde.symm hne.2
    | conditionFails => exact absurd hde.symm hne.2
  cases b' with
  | false => exact ⟨_, .targetFalse h1, fun d hd => ⟨.inr rfl, fun hde => by simpa using (inv d hd hde).1⟩⟩
  | true => cases c' with
    | false => exact ⟨_, .conditionFalse h1 h2, fun d hd => ⟨.inr rfl, fun hde => by simpa using (inv d hd hde).2⟩⟩
    | true => exact ⟨_, .effect h1 h2 he, fun _ _ => ⟨.inl rfl, fun _ => rfl⟩⟩

/-- The effect, if it is among the decisions. -/
private def Found (e : Effect) (ds : List Decision) (d : Decision) : Prop :=
  (effectDecision e ∈ ds → d = effectDecision e) ∧ (effectDecision e ∉ ds → d = .notApplicable)

private theorem first_found {e : Effect} {ds : List Decision} (h : ∀ d ∈ ds, d = effectDecision e ∨ d = .notApplicable) :
    Found e ds (Spec.firstApplicable ds) := by
  induction ds with
  | nil => exact ⟨fun h => by simp at h, fun _ => rfl⟩
  | cons d ds ih =>
    have ih := ih fun x hx => h x (by simp [hx])
    unfold Spec.firstApplicable at *
    rw [List.find?_cons]
    rcases h d (by simp) with rfl | rfl
    · rw [show decide (effectDecision e ≠ .notApplicable) = true from decide_eq_true (effect_ne e).1]
      exact ⟨fun _ => rfl, fun k => absurd (List.mem_cons_self ..) k⟩
    · have : ¬ effectDecision e = .notApplicable := (effect_ne e).1
      simp only [ne_eq, not_true_eq_false, decide_false]
      refine ⟨fun k => ih.1 ?_, fun k => ih.2 fun k' => k (List.mem_cons_of_mem _ k')⟩
      rcases List.mem_cons.1 k with k | k
      · exact absurd k this
      · exact k

private theorem no_failure {e : Effect} {ds : List Decision} (h : ∀ d ∈ ds, d = effectDecision e ∨ d = .notApplicable) :
    .indeterminate ∉ ds ∧ (e = .permit → .deny ∉ ds) ∧ (e = .deny → .permit ∉ ds) := by
  refine ⟨fun k => ?_, fun he k => ?_, fun he k => ?_⟩
  · rcases h _ k with h | h
    · exact (effect_ne e).2 h.symm
    · cases h
  · subst he; rcases h _ k with h | h <;> cases h
  · subst he; rcases h _ k with h | h <;> cases h

private theorem rules_found (e : Effect) (alg : Alg) (es : List (Option Effect)) {ds : List Decision}
    (h : ∀ d ∈ ds, d = effectDecision e ∨ d = .notApplicable) : Found e ds (Spec.combineRules alg es ds) := by
  obtain ⟨h1, h2, h3⟩ := no_failure h
  have hz : ∀ x, (x, Decision.indeterminate) ∉ es.zip ds := fun x k => h1 (List.of_mem_zip k).2
  cases alg with
  | firstApplicable => exact first_found h
  | denyOverrides =>
    simp only [Spec.combineRules, ruleDenyOverrides, hz, h1, if_false]
    cases e
    · simp only [h2 rfl, if_false]; exact ⟨fun k => if_pos k, fun k => if_neg k⟩
    · simp only [h3 rfl, if_false]; exact ⟨fun k => if_pos k, fun k => if_neg k⟩
  | permitOverrides =>
    simp only [Spec.combineRules, rulePermitOverrides, hz, h1, if_false]
    cases e
    · simp only [h2 rfl, if_false]; exact ⟨fun k => if_pos k, fun k => if_neg k⟩
    · simp only [h3 rfl, if_false]; exact ⟨fun k => if_pos k, fun k => if_neg k⟩

private theorem policies_found (e : Effect) (alg : Alg) {ds : List Decision}
    (h : ∀ d ∈ ds, d = effectDecision e ∨ d = .notApplicable) : Found e ds (Spec.combinePolicies alg ds) := by
  obtain ⟨h1, h2, h3⟩ := no_failure h
  cases alg with
  | firstApplicable => exact first_found h
  | denyOverrides =>
    simp only [Spec.combinePolicies, policyDenyOverrides, h1, or_false]
    cases e
    · simp only [h2 rfl, if_false]; exact ⟨fun k => if_pos k, fun k => if_neg k⟩
    · simp only [h3 rfl, if_false]; exact ⟨fun k => if_pos k, fun k => if_neg k⟩
  | permitOverrides =>
    simp only [Spec.combinePolicies, policyPermitOverrides, h1, if_false]
    cases e
    · simp only [h2 rfl, if_false]; exact ⟨fun k => if_pos k, fun k => if_neg k⟩
    · simp only [h3 rfl, if_false]; exact ⟨fun k => if_pos k, fun k => if_neg k⟩

private theorem first_mem {e : Effect} {ds : List Decision} (h : Spec.firstApplicable ds = effectDecision e) :
    effectDecision e ∈ ds := by
  unfold Spec.firstApplicable at h
  cases hf : ds.find? (· ≠ .notApplicable) with
  | none => rw [hf] at h; exact absurd h.symm (effect_ne e).1
  | some d => rw [hf] at h; exact h ▸ List.mem_of_find?_eq_some hf

private theorem rules_mem {e : Effect} {alg : Alg} {es : List (Option Effect)} {ds : List Decision}
    (h : Spec.combineRules alg es ds = effectDecision e) : effectDecision e ∈ ds := by
  cases alg with
  | firstApplicable => exact first_mem h
  | denyOverrides =>
    simp only [Spec.combineRules, ruleDenyOverrides] at h
    cases e <;> (repeat' split at h) <;> first | assumption | cases h
  | permitOverrides =>
    simp only [Spec.combineRules, rulePermitOverrides] at h
    cases e <;> (repeat' split at h) <;> first | assumption | cases h

private theorem policies_mem {e : Effect} {alg : Alg} (ha : e = .deny → alg ≠ .denyOverrides) {ds : List Decision}
    (h : Spec.combinePolicies alg ds = effectDecision e) : effectDecision e ∈ ds := by
  cases alg with
  | firstApplicable => exact first_mem h
  | denyOverrides =>
    cases e with
    | deny => exact absurd rfl (ha rfl)
    | permit =>
      simp only [Spec.combinePolicies, policyDenyOverrides] at h
      (repeat' split at h) <;> first | assumption | cases h
  | permitOverrides =>
    simp only [Spec.combinePolicies, policyPermitOverrides] at h
    cases e <;> (repeat' split at h) <;> first | assumption | cases h

private theorem kept_found {e : Effect} {ds ds' : List Decision} {d d' : Decision} (hd : d = effectDecision e → effectDecision e ∈ ds)
    (hf : Found e ds' d') (h : effectDecision e ∈ ds → effectDecision e ∈ ds') : Kept e d d' := by
  refine ⟨?_, fun k => hf.1 (h (hd k))⟩
  rcases Classical.em (effectDecision e ∈ ds') with k | k
  · exact .inl (hf.1 k)
  · exact .inr (hf.2 k)

private theorem policies_list {ps : List PolicyNode} {ds : List Decision} :
    PoliciesMean env r ps ds ↔ Each (PolicyMeans env r) ps ds := by
  induction ps generalizing ds with
  | nil =>
    constructor
    · intro h; cases h; rfl
    · intro h; rw [each_nil] at h; subst h; exact .nil
  | cons p ps ih =>
    constructor
    · intro h
      cases h with
      | cons h1 h2 => exact ⟨_, _, rfl, h1, ih.1 h2⟩
    · rintro ⟨d, ds, rfl, h1, h2⟩
      exact .cons h1 (ih.2 h2)

private theorem children_more {α} {R R' : α → Decision → Prop} {e : Effect} {l : List α}
    (h : ∀ a ∈ l, ∃ d', R' a d' ∧ ∀ d, R a d → Kept e d d') (hex : ∀ a ∈ l, ∃ d, R a d) :
    ∃ ds', Each R' l ds' ∧ (∀ d' ∈ ds', d' = effectDecision e ∨ d' = .notApplicable) ∧
      ∀ ds, Each R l ds → effectDecision e ∈ ds → effectDecision e ∈ ds' := by
  obtain ⟨ds', hds'⟩ := each_total (R := fun a d' => R' a d' ∧ (∀ d, R a d → Kept e d d') ∧ ∃ d, R a d) (l := l) fun a ha => by
    obtain ⟨d', h1, h2⟩ := h a ha
    exact ⟨d', h1, h2, hex a ha⟩
  refine ⟨ds', each_imp (fun _ _ h => h.1) hds', ?_, ?_⟩
  · intro d' hd'
    obtain ⟨a, _, _, h2, d, hd⟩ := (each_both hds').2 d' hd'
    exact (h2 d hd).1
  · intro ds hds hm
    clear hex h
    induction l generalizing ds ds' with
    | nil => rw [each_nil] at hds; subst hds; simp at hm
    | cons a l ih =>
      obtain ⟨d, ds, rfl, k1, k2⟩ := hds
      obtain ⟨d', ds', rfl, k3, k4⟩ := hds'
      rcases List.mem_cons.1 hm with hm | hm
      · rw [(k3.2.1 d k1).2 hm.symm]; simp
      · exact List.mem_cons_of_mem _ (ih ds' k4 ds k2 hm)

private theorem rule_decides (hp : StatelessPip (some r)) (rule : Rule) (he : rule.effect ≠ none) :
    ∃ d, RuleMeans env r rule d := by
  obtain ⟨d, w, h⟩ := rule_evaluate_ok env rule (some r) start
  have hw : History env.re start := .start
  exact ⟨d, (C64_rule env r hp rule he hw d).1 (by rw [h])⟩

private theorem policy_decides (hp : StatelessPip (some r)) (p : PolicyNode) (hc : Complete p) :
    ∃ d, PolicyMeans env r p d := by
  have hw : History env.re start := .start
  obtain ⟨d, h, _⟩ := C64_pdp env r hp p hc hw
  exact ⟨d, (h d).2 rfl⟩

private theorem policy_more {e : Effect} {p : PolicyNode} (hp : SearchingPolicy env e p) (hs : StatelessPip (some r)) (hc : Complete p)
    (hl : ∀ l, InPolicy l p → SeesMore env r r' l) :
    ∃ d', PolicyMeans env r' p d' ∧ ∀ d, PolicyMeans env r p d → Kept e d d' := by
  induction hp with
  | @policy hdr rules ht hr =>
    obtain ⟨alg, halg⟩ := Option.ne_none_iff_exists'.1 hc.1
    obtain ⟨b', h1, g1⟩ := target_more ht fun l h => hl l (.policyTarget h)
    obtain ⟨ds', h2, h3, h4⟩ := children_more (R := RuleMeans env r) (R' := RuleMeans env r') (e := e) (l := rules)
      (fun rule hm => rule_more (hr rule hm) fun l h => hl l (.rule hm h))
      (fun rule hm => rule_decides hs rule (hc.2 rule hm))
    cases b' with
    | false =>
      refine ⟨_, .policyTargetFalse h1, fun d hd => ⟨.inr rfl, fun hde => ?_⟩⟩
      cases hd with
      | rules k => exact absurd (g1 _ k rfl) (by simp)
      | policyTargetFalse => exact absurd hde.symm (effect_ne e).1
      | policyTargetFails => exact absurd hde.symm (effect_ne e).2
    | true =>
      have hf := rules_found e alg (rules.map (·.effect)) h3
      refine ⟨_, .rules h1 halg h2, fun d hd => ?_⟩
      cases hd with
      | rules k1 k2 k3 =>
        rw [halg] at k2
        injection k2 with k2
        subst k2
        exact kept_found rules_mem hf (h4 _ k3)
      | policyTargetFalse => exact kept_found (ds := []) (fun h => absurd h.symm (effect_ne e).1) hf (by simp)
      | policyTargetFails => exact kept_found (ds := []) (fun h => absurd h.symm (effect_ne e).2) hf (by simp)
  | @policySet hdr ps ht ha hps ih =>
    obtain ⟨alg, halg⟩ := Option.ne_none_iff_exists'.1 hc.1
    have hcs : ∀ p ∈ ps, Complete p := by
      have : ∀ l : List PolicyNode, AllComplete l → ∀ p ∈ l, Complete p := by
        intro l
        induction l with
        | nil => simp
        | cons q l ihl =>
          rintro ⟨h1, h2⟩ p hp
          rcases List.mem_cons.1 hp with rfl | hp
          · exact h1
          · exact ihl h2 p hp
      exact this ps hc.2
    obtain ⟨b', h1, g1⟩ := target_more ht fun l h => hl l (.setTarget h)
    obtain ⟨ds', h2, h3, h4⟩ := children_more (R := PolicyMeans env r) (R' := PolicyMeans env r') (e := e) (l := ps)
      (fun p hm => ih p hm (hcs p hm) fun l h => hl l (.child hm h))
      (fun p hm => policy_decides hs p (hcs p hm))
    cases b' with
    | false =>
      refine ⟨_, .setTargetFalse h1, fun d hd => ⟨.inr rfl, fun hde => ?_⟩⟩
      cases hd with
      | policies k => exact absurd (g1 _ k rfl) (by simp)
      | setTargetFalse => exact absurd hde.symm (effect_ne e).1
      | setTargetFails => exact absurd hde.symm (effect_ne e).2
    | true =>
      have hf := policies_found e alg h3
      refine ⟨_, .policies h1 halg (policies_list.2 h2), fun d hd => ?_⟩
      cases hd with
      | policies k1 k2 k3 =>
        rw [halg] at k2
        injection k2 with k2
        subst k2
        exact kept_found (policies_mem fun he k => ha he (k ▸ halg)) hf (h4 _ (policies_list.1 k3))
      | setTargetFalse => exact kept_found (ds := []) (fun h => absurd h.symm (effect_ne e).1) hf (by simp)
      | setTargetFails => exact kept_found (ds := []) (fun h => absurd h.symm (effect_ne e).2) hf (by simp)

end

/-- C104: a policy with rules of one effect which only look for values gives that effect, or NotApplicable, to a request that can be
read; and it gives the effect if it gives it to a request in which its designators and selectors find fewer values. -/
theorem C104_sees_more (env : Env) (e : Effect) (p : PolicyNode) (hp : SearchingPolicy env e p) (hc : Complete p) (r r' : Request)
    (hs : StatelessPip (some r)) (hs' : StatelessPip (some r')) (hl : ∀ l, InPolicy l p → SeesMore env r r' l) {w w' : World}
    (hw : History env.re w) (hw' : History env.re w') :
    (Answers env p r' w' (effectDecision e) ∨ Answers env p r' w' .notApplicable) ∧
    (Answers env p r w (effectDecision e) → Answers env p r' w' (effectDecision e)) := by
  obtain ⟨d0, h1, h2⟩ := policy_more hp hs hc hl
  obtain ⟨d, h3, h4⟩ := C64_pdp env r hs p hc hw
  obtain ⟨d', h5, h6⟩ := C64_pdp env r' hs' p hc hw'
  have hd : d0 = d' := (h5 d0).1 h1
  subst hd
  have hk := h2 d ((h3 d).2 rfl)
  constructor
  · rcases hk.1 with h | h
    · exact .inl (h ▸ h6)
    · exact .inr (h ▸ h6)
  · intro ha
    unfold Answers at ha ⊢
    rw [h4] at ha
    have : d = effectDecision e := by simpa using ha
    rw [h6, hk.2 this]

/-! ## Requests with more attributes -/

private theorem designated_grown (d : Designator) {as as' : List Attribute} (h : AttributesGrown as as') :
    ∀ v ∈ designated d as, v ∈ designated d as' := by
  intro v hv
  obtain ⟨a, ha, hv⟩ := List.mem_flatMap.1 hv
  obtain ⟨ha, hsel⟩ := List.mem_filter.1 ha
  obtain ⟨hv, hty⟩ := List.mem_filter.1 hv
  obtain ⟨a', ha', h1, h2, h3, h4⟩ := h a ha
  refine List.mem_flatMap.2 ⟨a', List.mem_filter.2 ⟨ha', ?_⟩, List.mem_filter.2 ⟨h4 v hv, hty⟩⟩
  have hsel : AttrSelected d a := by simpa using hsel
  have : AttrSelected d a' := by
    unfold AttrSelected at hsel ⊢
    rw [← h1, ← h2, ← h3]
    exact hsel
  simpa using this

private theorem attributes_grown {d d' : ReqData} (h : RequestGrown d d') (cat : Category) :
    PartGrown (attributesOf cat d) (attributesOf cat d') := by
  cases cat with
  | subject =>
    intro a ha
    obtain ⟨s, hs, ha⟩ := List.mem_flatMap.1 ha
    obtain ⟨s', hs', hg⟩ := h.subjects s hs
    obtain ⟨a', ha', h'⟩ := hg a ha
    exact ⟨a', List.mem_flatMap.2 ⟨s', hs', ha'⟩, h'⟩
  | resource =>
    intro a ha
    obtain ⟨s, hs, ha⟩ := List.mem_flatMap.1 ha
    obtain ⟨s', hs', hg⟩ := h.resources s hs
    obtain ⟨a', ha', h'⟩ := hg a ha
    exact ⟨a', List.mem_flatMap.2 ⟨s', hs', ha'⟩, h'⟩
  | action => exact h.action
  | environment => exact h.environment

/-- C104: attributes added to a request never make such a policy take back its decision, if no context handler is asked, the
larger request has all that the policy requires to be present and its values are of the types they say. -/
theorem C104_more_attributes (env : Env) (e : Effect) (p : PolicyNode) (hp : SearchingPolicy env e p) (hc : Complete p)
    (hsel : ∀ s, ¬ InPolicy (.selector s) p) (r r' : Request) (hg : RequestGrown r.data r'.data) (hn : r.ctxHandler = none)
    (hn' : r'.ctxHandler = none)
    (hv : ∀ cat attrs, attributesOf cat r'.data = some attrs → ∀ a ∈ attrs, ∀ v ∈ a.values, ProperValue env (some v.dataType) v)
    (hm : ∀ cat d, InPolicy (.designator cat d) p → ∃ attrs, attributesOf cat r'.data = some attrs ∧
      (d.mustBePresent = true → designated d attrs ≠ []))
    {w w' : World} (hw : History env.re w) (hw' : History env.re w') :
    (Answers env p r' w' (effectDecision e) ∨ Answers env p r' w' .notApplicable) ∧
    (Answers env p r w (effectDecision e) → Answers env p r' w' (effectDecision e)) := by
  have st : ∀ q : Request, q.ctxHandler = none → StatelessPip (some q) := by
    intro q hq _ hr pip h
    injection hr with hr
    subst hr
    rw [hq] at h
    cases h
  refine C104_sees_more env e p hp hc r r' (st r hn) (st r' hn') ?_ hw hw'
  intro l hl
  cases l with
  | selector s => exact absurd hl (hsel s)
  | designator cat d =>
    obtain ⟨attrs', h1, h2⟩ := hm cat d hl
    have hprop : ∀ v ∈ designated d attrs', ProperValue env d.dataType v := by
      intro v hv'
      obtain ⟨a, ha, hva⟩ := List.mem_flatMap.1 hv'
      obtain ⟨hva, hty⟩ := List.mem_filter.1 hva
      have hty : some v.dataType = d.dataType := by simpa using hty
      exact hty ▸ hv cat attrs' h1 a (List.mem_filter.1 ha).1 v hva
    refine ⟨designated d attrs', .request (fun _ => hn') h1 (fun v h => proper_typed (hprop v h)) h2, hprop, ?_⟩
    intro vs hvs v hv'
    have hvs : DesignatorMeans env r cat d vs := hvs
    cases hvs with
    | pip k _ _ => rw [hn] at k; cases k
    | request k1 k2 k3 k4 =>
      have hgrown := attributes_grown hg cat
      rw [k2, h1] at hgrown
      exact designated_grown d hgrown v hv'

/-- C104: match elements with an equality function for the data type are of the required kind. -/
theorem C104_equality (env : Env) (m : Match) (l : Reading) (hl : ReadBy m l) (t : AVClass) (hf : m.func = some (.equal t))
    {u : AttrVal} (hu : m.value = some u) (ht : u.isInst t = true)
    (hty : ∀ v, WellTyped env.classMap (typeRead l) v → v.isInst t = true) : DefiniteMatch env m := by
  refine ⟨l, _, hl, hf, fun v hv => ?_⟩
  rw [hu]
  rcases Classical.em (SameValue u.value v.value) with h | h
  · exact ⟨true, .equal ht (hty v (proper_typed hv)) (by simp [h])⟩
  · exact ⟨false, .equal ht (hty v (proper_typed hv)) (by simp [h])⟩

/-- C104: so are match elements with a regular expression that compiles. -/
theorem C104_pattern (env : Env) (m : Match) (l : Reading) (hl : ReadBy m l) (t : AVClass) (hf : m.func = some (.regexpMatch t))
    {u : AttrVal} {pat : String} {f : String → Bool} (hu : m.value = some u) (ht : u.isInst t = true) (hp : HasText u pat)
    (hre : env.re pat = .ok f) (hty : ∀ v, ProperValue env (typeRead l) v → v.isInst t = true ∧ ∃ s, HasText v s) :
    DefiniteMatch env m := by
  refine ⟨l, _, hl, hf, fun v hv => ?_⟩
  obtain ⟨h1, s, h2⟩ := hty v hv
  rw [hu]
  exact ⟨f s, .regexpMatch ht h1 hp h2 hre⟩

namespace Samples

/-- Nothing is required to be present. -/
def roles : Designator := { roleDes with mustBePresent := false }
def admins : Expr := .apply (some (.bag stringClass)) [.value (str "admin")]
/-- Is the role one of the admin's? -/
def isAdmin : Expr := .apply (some (.atLeastOneMemberOf stringClass)) [.designator .subject roles, admins]
def when (e : Effect) (x : Expr) : Rule := { effect := some e, target := none, condition := some { expression := some x } }
def granted : PolicyNode :=
  .policySet (hdr .denyOverrides) [.policy (hdr .firstApplicable (some (roleTarget "staff"))) [when .permit isAdmin, roleRule .permit "x"]]
/-- A request of somebody with these roles. -/
def by_ (vs : List String) : Request :=
  { data := { subjects := [{ category := none, attributes := [roleAttr vs] }], resources := [], action := none, environment := none }
    ctxHandler := none, attributeSelector := none }

private theorem lookup_string : classLookup env.classMap (some (xsd "string")) = some stringClass := rfl

theorem definite_role (s : String) : DefiniteTarget env (some (roleTarget s)) := by
  intro u hu m hm
  injection hu with hu
  subst hu
  have : m = roleMatch s := by simpa [allMatches, roleTarget] using hm
  subst this
  refine C104_equality env _ _ (.inl ⟨.subject, roleDes, rfl, rfl⟩) stringClass rfl rfl rfl ?_
  rintro v ⟨dt, c, h1, h2, h3⟩
  cases h1
  have : c = stringClass := by
    have h2 : classLookup env.classMap (some (xsd "string")) = some c := h2
    rw [lookup_string] at h2
    injection h2 with h2
    exact h2.symm
  exact this ▸ h3

/-- Does the role match this pattern? -/
def rolePattern (s : String) : Match := { roleMatch s with func := some (.regexpMatch stringClass) }

example : DefiniteMatch env (rolePattern "staff") := by
  refine C104_pattern env _ _ (.inl ⟨.subject, roleDes, rfl, rfl⟩) stringClass rfl (pat := "staff") rfl rfl rfl rfl ?_
  rintro v ⟨dt, c, n, h1, h2, h3, hv, hn⟩
  cases h1
  have h2 : classLookup env.classMap (some (xsd "string")) = some c := h2
  rw [lookup_string] at h2
  injection h2 with h2
  subst h2
  refine ⟨h3, ?_⟩
  cases n with
  | str s => exact ⟨s, hv⟩
  | _ => cases hn

theorem searching_isAdmin : Searching env isAdmin :=
  .common (.designator lookup_string rfl) (.written (vs := [str "admin"]) (by simp [AttrVal.isInst, AVClass.isSub, str]))

theorem searching_granted : SearchingPolicy env .permit granted := by
  refine .policySet (fun _ h => by cases h) (fun h => by cases h) fun p hp => ?_
  have : p = .policy (hdr .firstApplicable (some (roleTarget "staff"))) [when .permit isAdmin, roleRule .permit "x"] := by
    simpa using hp
  subst this
  refine .policy (definite_role _) fun rule hr => ?_
  simp only [List.mem_cons, List.not_mem_nil, or_false] at hr
  rcases hr with rfl | rfl
  · exact ⟨rfl, (fun _ h => by cases h), fun c h => by cases h; exact ⟨_, rfl, searching_isAdmin⟩⟩
  · exact ⟨rfl, definite_role _, fun c h => by cases h⟩

theorem role_readings {l : Reading} {s : String} (h : InTarget l (some (roleTarget s))) : l = .designator .subject roleDes := by
  obtain ⟨t, ht, c, hc, m, hm, h⟩ := h
  injection ht with ht
  subst ht
  have hc : c = { matches_ := [roleMatch s] } := by simpa [roleTarget] using hc
  subst hc
  have hm : m = roleMatch s := by simpa using hm
  subst hm
  rcases h with ⟨_, _, h, rfl⟩ | ⟨_, h, _⟩
  · cases h; rfl
  · cases h

theorem granted_readings {l : Reading} (h : InPolicy l granted) :
    l = .designator .subject roleDes ∨ l = .designator .subject roles := by
  cases h with
  | setTarget h => obtain ⟨_, h, _⟩ := h; cases h
  | child hm h =>
    simp only [List.mem_cons, List.not_mem_nil, or_false] at hm
    subst hm
    cases h with
    | policyTarget h => exact .inl (role_readings h)
    | rule hm h =>
      simp only [List.mem_cons, List.not_mem_nil, or_false] at hm
      rcases hm with rfl | rfl
      · rcases h with ⟨_, h, _⟩ | ⟨c, x, h1, h2, h3⟩
        · cases h
        · cases h1; cases h2
          cases h3 with
          | apply hm h =>
            simp only [List.mem_cons, List.not_mem_nil, or_false] at hm
            rcases hm with rfl | rfl
            · cases h with | designator h => exact .inr h
            · cases h with
              | apply hm h =>
                simp only [List.mem_cons, List.not_mem_nil, or_false] at hm
                subst hm
                cases h
      · rcases h with h | ⟨c, x, h1, _⟩
        · exact .inl (role_readings h)
        · cases h1

/-- The hypotheses are met by a request that gets further roles. -/
example {w w' : World} (hw : History env.re w) (hw' : History env.re w')
    (h : Answers env granted (by_ ["staff", "admin"]) w .permit) :
    Answers env granted (by_ ["guest", "admin", "staff", "x"]) w' .permit := by
  have hg : RequestGrown (by_ ["staff", "admin"]).data (by_ ["guest", "admin", "staff", "x"]).data := by
    refine ⟨?_, by simp [by_], trivial, trivial⟩
    intro s hs
    have hs : s = { category := none, attributes := [roleAttr ["staff", "admin"]] } := by simpa [by_] using hs
    subst hs
    refine ⟨{ category := none, attributes := [roleAttr ["guest", "admin", "staff", "x"]] }, by simp [by_], ?_⟩
    intro a ha
    have ha : a = roleAttr ["staff", "admin"] := by simpa using ha
    subst ha
    exact ⟨roleAttr ["guest", "admin", "staff", "x"], by simp, rfl, rfl, rfl, by simp +contextual [roleAttr]⟩
  refine (C104_more_attributes env .permit granted searching_granted (by simp [Complete, AllComplete, granted, hdr, when, roleRule])
    ?_ _ _ hg rfl rfl ?_ ?_ hw hw').2 h
  · intro s hs
    rcases granted_readings hs with h | h <;> cases h
  · intro cat attrs hat a ha v hv
    cases cat with
    | subject =>
      have hat : attrs = [roleAttr ["guest", "admin", "staff", "x"]] := by simpa [attributesOf, by_] using hat.symm
      subst hat
      have ha : a = roleAttr ["guest", "admin", "staff", "x"] := by simpa using ha
      subst ha
      have hv : ∃ x, v = str x := by
        simp [roleAttr] at hv
        rcases hv with rfl | rfl | rfl | rfl <;> exact ⟨_, rfl⟩
      obtain ⟨x, rfl⟩ := hv
      exact ⟨_, stringClass, .str x, rfl, rfl, rfl, rfl, rfl⟩
    | resource =>
      have hat : attrs = [] := by simpa [attributesOf, by_] using hat.symm
      subst hat
      cases ha
    | action => cases hat
    | environment => cases hat
  · intro cat d hd
    rcases granted_readings hd with h | h <;> cases h
    · exact ⟨_, rfl, fun _ => by decide⟩
    · exact ⟨_, rfl, fun _ => by decide⟩

example : Answers env granted (by_ ["staff", "admin"]) w0 .permit := rfl
example : Answers env granted (by_ ["staff"]) w0 .notApplicable := rfl

end Samples

section
open Samples

/-- The role is exactly the admin's. -/
private def onlyAdmin : Expr :=
  .apply (some (.equal stringClass)) [.apply (some (.oneAndOnly stringClass)) [.designator .subject roles], .value (str "admin")]

/-- C104 needs conditions without not and one-and-only, and rules of one effect: otherwise a further role can cost the permission. -/
theorem C104_searching_needed :
    (∃ x, Answers env (.policy (hdr .denyOverrides) [when .permit (.apply (some .not) [x])]) (by_ ["guest"]) w0 .permit ∧
      Answers env (.policy (hdr .denyOverrides) [when .permit (.apply (some .not) [x])]) (by_ ["guest", "admin"]) w0 .notApplicable) ∧
    (Answers env (.policy (hdr .denyOverrides) [when .permit onlyAdmin]) (by_ ["admin"]) w0 .permit ∧
      Answers env (.policy (hdr .denyOverrides) [when .permit onlyAdmin]) (by_ ["admin", "guest"]) w0 .indeterminate) ∧
    (Answers env (.policy (hdr .denyOverrides) [when .permit isAdmin, roleRule .deny "guest"]) (by_ ["admin"]) w0 .permit ∧
      Answers env (.policy (hdr .denyOverrides) [when .permit isAdmin, roleRule .deny "guest"]) (by_ ["admin", "guest"]) w0 .deny) :=
  ⟨⟨isAdmin, rfl, rfl⟩, ⟨rfl, rfl⟩, ⟨rfl, rfl⟩⟩

/-- C104 for Deny needs policy sets that are not deny-overrides: there, an attribute that had to be present and is added lifts the
Deny that its absence caused. -/
theorem C104_deny_set_needed :
    Answers env (.policySet (hdr .denyOverrides) [.policy (hdr .denyOverrides) [roleRule .deny "guest"]]) (by_ []) w0 .deny ∧
    Answers env (.policySet (hdr .denyOverrides) [.policy (hdr .denyOverrides) [roleRule .deny "guest"]]) (by_ ["admin"]) w0
      .notApplicable := ⟨rfl, rfl⟩

/-- C104 needs the larger request to have what must be present: otherwise a role that makes a further rule applicable can make
the policy fail. -/
theorem C104_present_needed :
    Answers env (.policy (hdr .firstApplicable) [{ roleRule .permit "admin" with
        condition := some { expression := some (.apply (some (.atLeastOneMemberOf stringClass)) [.designator .subject missingDes, admins]) } },
      roleRule .permit "staff"]) (by_ ["staff"]) w0 .permit ∧
    Answers env (.policy (hdr .firstApplicable) [{ roleRule .permit "admin" with
        condition := some { expression := some (.apply (some (.atLeastOneMemberOf stringClass)) [.designator .subject missingDes, admins]) } },
      roleRule .permit "staff"]) (by_ ["staff", "admin"]) w0 .indeterminate := ⟨rfl, rfl⟩

end

end Xacml
