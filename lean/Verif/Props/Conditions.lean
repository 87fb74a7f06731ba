import Verif.Spec.Conditions
import Verif.Props.Semantics

/-!
# C112, C113: conditions can be rewritten with boolean algebra, and targets as conditions
-/
namespace Xacml
open Spec

variable {env : Env} {r : Request}

private theorem means_unique (hs : StatelessPip (some r)) {e : Expr} {x y : PyVal} (h : Means env r e x)
    (h' : Means env r e y) : x = y := by
  rw [← expr_den env r hs] at h h'
  rw [h] at h'; injection h'

private theorem meansAll_each {es : List Expr} {xs : List PyVal} : MeansAll env r es xs ↔ Each (Means env r) es xs := by
  induction es generalizing xs with
  | nil => exact ⟨fun h => by cases h; rfl, fun h => by cases (h : xs = []); exact .nil⟩
  | cons e es ih =>
    constructor
    · intro h
      cases h with
      | cons h hs => exact ⟨_, _, rfl, h, ih.1 hs⟩
    · rintro ⟨x, xs, rfl, h, hs⟩
      exact .cons h (ih.2 hs)

private theorem bool_inj {a b : Bool} (h : PyVal.native (.bool a) = .native (.bool b)) : a = b := by
  injection h with h; injection h

/-- `and`, by what is among its arguments. -/
private theorem and_means (hs : StatelessPip (some r)) {args : List Expr} {x : PyVal} :
    Means env r (.apply (some .and) args) x ↔ ∃ b, x = .native (.bool b) ∧
      (∀ e ∈ args, ∃ b, Means env r e (.native (.bool b))) ∧
      (b = true ↔ ∀ e ∈ args, Means env r e (.native (.bool true))) := by
  have key : ∀ (args : List Expr) (bs : List Bool), MeansAll env r args (bs.map (.native ∘ .bool)) →
      (∀ e ∈ args, ∃ b, Means env r e (.native (.bool b))) ∧
      ((∀ b ∈ bs, b = true) ↔ ∀ e ∈ args, Means env r e (.native (.bool true))) := by
    intro args
    induction args with
    | nil =>
      intro bs h
      cases bs with
      | nil => simp
      | cons => cases h
    | cons e es ih =>
      intro bs h
      cases bs with
      | nil => cases h
      | cons b bs =>
        cases h with
        | cons h hs' =>
          obtain ⟨h1, h2⟩ := ih bs hs'
          simp only [List.forall_mem_cons, h2]
          refine ⟨⟨⟨b, h⟩, h1⟩, and_congr_left fun _ => ⟨fun hb => hb ▸ h, fun ht => bool_inj (means_unique hs h ht)⟩⟩
  constructor
  · intro h
    cases h with
    | apply ha hf =>
      cases hf with
      | @and bs b hb => exact ⟨b, rfl, (key args bs ha).1, hb.trans (key args bs ha).2⟩
  · rintro ⟨b, rfl, h1, h2⟩
    have : ∃ bs : List Bool, MeansAll env r args (bs.map (.native ∘ .bool)) := by
      clear h2
      induction args with
      | nil => exact ⟨[], .nil⟩
      | cons e es ih =>
        obtain ⟨bs, hbs⟩ := ih fun e he => h1 e (List.mem_cons_of_mem _ he)
        obtain ⟨b, hb⟩ := h1 e (List.mem_cons_self ..)
        exact ⟨b :: bs, .cons hb hbs⟩
    obtain ⟨bs, hbs⟩ := this
    exact .apply hbs (.and (h2.trans (key args bs hbs).2.symm))

private theorem not_means {e : Expr} {x : PyVal} :
    Means env r (.apply (some .not) [e]) x ↔ ∃ b, x = .native (.bool (!b)) ∧ Means env r e (.native (.bool b)) := by
  constructor
  · intro h
    cases h with
    | apply ha hf =>
      cases hf with
      | @not b r hb =>
        cases ha with
        | cons ha _ =>
          refine ⟨b, ?_, ha⟩
          cases b <;> cases r <;> simp_all
  · rintro ⟨b, rfl, h⟩
    exact .apply (.cons h .nil) (.not (by cases b <;> simp))

private theorem boolean_means {e : Expr} (hb : BooleanExpr e) {x : PyVal} (h : Means env r e x) :
    ∃ b, x = .native (.bool b) := by
  cases h with
  | value | designator | selector => exact hb.elim
  | apply _ hf =>
    cases hf with
    | equal | matchFn | atLeastOneMemberOf | and | not | regexpMatch => exact ⟨_, rfl⟩
    | bag | oneAndOnly | roundInt | roundBool | roundFloat | concatenate | custom => exact hb.elim

private theorem swap_means {f : Func} {a b : Expr}
    (hf : ∀ x y z, FuncMeans env.re f [x, y] z → FuncMeans env.re f [y, x] z) {x : PyVal}
    (h : Means env r (.apply (some f) [a, b]) x) : Means env r (.apply (some f) [b, a]) x := by
  cases h with
  | apply ha hx =>
    cases ha with
    | cons h1 h =>
      cases h with
      | cons h2 h => cases h; exact .apply (.cons h2 (.cons h1 .nil)) (hf _ _ _ hx)

/-- Expressions that differ by boolean algebra have the same values and fail alike. -/
theorem same_means (hs : StatelessPip (some r)) {e e' : Expr} (h : SameExpr e e') (x : PyVal) :
    Means env r e x ↔ Means env r e' x := by
  induction h generalizing x with
  | refl => exact Iff.rfl
  | symm _ ih => exact (ih x).symm
  | trans _ _ ih1 ih2 => exact (ih1 x).trans (ih2 x)
  | @inside f pre e e' post _ ih =>
    have : ∀ xs, MeansAll env r (pre ++ e :: post) xs ↔ MeansAll env r (pre ++ e' :: post) xs := by
      induction pre with
      | nil =>
        intro xs
        simp only [List.nil_append]
        constructor
        · intro h; cases h with | cons h hs => exact .cons ((ih _).1 h) hs
        · intro h; cases h with | cons h hs => exact .cons ((ih _).2 h) hs
      | cons p pre ihp =>
        intro xs
        simp only [List.cons_append]
        constructor
        · intro h; cases h with | cons h hs => exact .cons h ((ihp _).1 hs)
        · intro h; cases h with | cons h hs => exact .cons h ((ihp _).2 hs)
    constructor
    · intro h; cases h with | apply h hf => exact .apply ((this _).1 h) hf
    · intro h; cases h with | apply h hf => exact .apply ((this _).2 h) hf
  | reorder hp => rw [and_means hs, and_means hs]; simp only [hp.mem_iff]
  | repeated => rw [and_means hs, and_means hs]; simp
  | flatten =>
    rw [and_means hs, and_means hs]
    simp only [List.forall_mem_cons, and_means hs, List.forall_mem_append]
    refine exists_congr fun b => and_congr_right fun _ => ?_
    have : ∀ (P Q : Prop), (∃ b b' : Bool, PyVal.native (.bool b) = .native (.bool b') ∧ P ∧ (b' = true ↔ Q)) ↔ P := by
      intro P Q
      constructor
      · rintro ⟨_, _, _, h, _⟩; exact h
      · intro h
        by_cases hq : Q
        · exact ⟨true, true, rfl, h, by simp [hq]⟩
        · exact ⟨false, false, rfl, h, by simp [hq]⟩
    rw [this]
    refine and_congr_right fun h => ?_
    have : ∀ (P Q : Prop), P → ((∃ b', PyVal.native (.bool true) = .native (.bool b') ∧ P ∧ (b' = true ↔ Q)) ↔ Q) :=
      fun P Q hp => ⟨fun ⟨b', h1, _, h2⟩ => h2.1 (bool_inj h1).symm, fun h' => ⟨true, rfl, hp, by simp [h']⟩⟩
    rw [this _ _ h.1]
  | single hb =>
    rw [and_means hs]
    simp only [List.forall_mem_cons, List.not_mem_nil, false_implies, implies_true, and_true]
    constructor
    · rintro ⟨b, rfl, ⟨b', h1⟩, h2⟩
      cases b' with
      | true => rw [h2.2 h1]; exact h1
      | false =>
        cases b with
        | false => exact h1
        | true => exact h2.1 rfl
    · intro h
      obtain ⟨b, rfl⟩ := boolean_means hb h
      exact ⟨b, rfl, ⟨b, h⟩, fun hb => hb ▸ h, fun ht => bool_inj (means_unique hs h ht)⟩
  | doubleNot hb =>
    rw [not_means]
    simp only [not_means]
    constructor
    · rintro ⟨b, rfl, b', h1, h2⟩
      rw [bool_inj h1]; simpa using h2
    · intro h
      obtain ⟨b, rfl⟩ := boolean_means hb h
      exact ⟨!b, by simp, b, rfl, h⟩
  | equalSwap =>
    have : ∀ (t : AVClass) x y z, FuncMeans env.re (.equal t) [x, y] z → FuncMeans env.re (.equal t) [y, x] z := by
      intro t x y z h
      cases h with
      | equal h1 h2 h3 => exact .equal h2 h1 (h3.trans ⟨SameValue.symm, SameValue.symm⟩)
    exact ⟨swap_means (this _), swap_means (this _)⟩
  | memberSwap =>
    have : ∀ (t : AVClass) x y z, FuncMeans env.re (.atLeastOneMemberOf t) [x, y] z →
        FuncMeans env.re (.atLeastOneMemberOf t) [y, x] z := by
      intro t x y z h
      cases h with
      | atLeastOneMemberOf h1 h2 h3 =>
        exact .atLeastOneMemberOf h2 h1 (h3.trans ⟨fun ⟨v, hv, w, hw, h⟩ => ⟨w, hw, v, hv, h.symm⟩,
          fun ⟨v, hv, w, hw, h⟩ => ⟨w, hw, v, hv, h.symm⟩⟩)
    exact ⟨swap_means (this _), swap_means (this _)⟩

private theorem rule_same (hs : StatelessPip (some r)) {rule rule' : Rule} (h : rule' = rule ∨ SameCondition rule rule')
    {d : Decision} (hd : RuleMeans env r rule d) : RuleMeans env r rule' d := by
  rcases h with rfl | ⟨c, e, c', e', h1, h2, h3, h4, rfl⟩
  · exact hd
  have hh : ∀ b, Holds env r rule.condition b ↔ Holds env r (some c') b := by
    intro b
    rw [h1]
    simp only [Holds, h2, h3]
    constructor
    · rintro ⟨_, x, hk, hx, hb⟩; injection hk with hk; subst hk; exact ⟨_, x, rfl, (same_means hs h4 x).1 hx, hb⟩
    · rintro ⟨_, x, hk, hx, hb⟩; injection hk with hk; subst hk; exact ⟨_, x, rfl, (same_means hs h4 x).2 hx, hb⟩
  cases hd with
  | targetFalse h => exact .targetFalse h
  | conditionFalse h h' => exact .conditionFalse h ((hh _).1 h')
  | effect h h' h'' => exact .effect h ((hh _).1 h') h''
  | targetFails h => exact .targetFails h
  | conditionFails h h' => exact .conditionFails h fun b hb => h' b ((hh b).2 hb)

/-- Changes of rules that keep effect and decision. -/
private def KeepsMeaning (env : Env) (r : Request) (R : Rule → Rule → Prop) : Prop :=
  ∀ rule rule', R rule rule' → rule'.effect = rule.effect ∧ ∀ d, RuleMeans env r rule d → RuleMeans env r rule' d

private theorem rewritten_keeps (hs : StatelessPip (some r)) :
    KeepsMeaning env r (fun rule rule' => rule' = rule ∨ SameCondition rule rule') := by
  intro rule rule' h
  refine ⟨?_, fun d hd => rule_same hs h hd⟩
  rcases h with rfl | ⟨_, _, _, _, _, _, _, _, rfl⟩ <;> rfl

private theorem rules_same {R : Rule → Rule → Prop} (hR : KeepsMeaning env r R)
    {rs rs' : List Rule} (h : Each R rs rs') :
    rs'.map (·.effect) = rs.map (·.effect) ∧ ∀ ds, Each (RuleMeans env r) rs ds → Each (RuleMeans env r) rs' ds := by
  induction rs generalizing rs' with
  | nil => cases (h : rs' = []); exact ⟨rfl, fun _ h => h⟩
  | cons x rs ih =>
    obtain ⟨x', rs', rfl, hx, h⟩ := h
    obtain ⟨h1, h2⟩ := ih h
    refine ⟨by simp [h1, (hR _ _ hx).1], ?_⟩
    rintro _ ⟨d, ds, rfl, hd, hds⟩
    exact ⟨d, ds, rfl, (hR _ _ hx).2 d hd, h2 ds hds⟩

mutual
private theorem tree_same {R : Rule → Rule → Prop} (hR : KeepsMeaning env r R) : (p p' : PolicyNode) → Rulewise R p p' →
    ∀ {d}, PolicyMeans env r p d → PolicyMeans env r p' d
  | .policy hdr rs, .policy hdr' rs', ha, d, h => by
    cases ha with
    | policy hi =>
      obtain ⟨h1, h2⟩ := rules_same hR hi
      cases h with
      | rules ht halg hds => rw [← h1]; exact .rules ht halg (h2 _ hds)
      | policyTargetFalse ht => exact .policyTargetFalse ht
      | policyTargetFails ht => exact .policyTargetFails ht
  | .policySet hdr ps, .policySet hdr' ps', ha, d, h => by
    cases ha with
    | policySet ha =>
      cases h with
      | policies ht halg hds => exact .policies ht halg (trees_same hR ps ps' ha hds)
      | setTargetFalse ht => exact .setTargetFalse ht
      | setTargetFails ht => exact .setTargetFails ht
  | .policy _ _, .policySet _ _, ha, _, _ => by cases ha
  | .policySet _ _, .policy _ _, ha, _, _ => by cases ha
private theorem trees_same {R : Rule → Rule → Prop} (hR : KeepsMeaning env r R) : (ps ps' : List PolicyNode) →
    AllRulewise R ps ps' →
    ∀ {ds}, PoliciesMean env r ps ds → PoliciesMean env r ps' ds
  | [], [], _, ds, h => h
  | p :: ps, p' :: ps', ha, ds, h => by
    cases ha with
    | cons ha has =>
      cases h with
      | cons h h' => exact .cons (tree_same hR p p' ha h) (trees_same hR ps ps' has h')
  | [], _ :: _, ha, _, _ => by cases ha
  | _ :: _, [], ha, _, _ => by cases ha
end

private theorem effects_same {R : Rule → Rule → Prop} (hR : KeepsMeaning env r R) {rs rs' : List Rule}
    (h : Each R rs rs')
    (hc : ∀ x ∈ rs, x.effect ≠ none) : ∀ x ∈ rs', x.effect ≠ none := by
  induction rs generalizing rs' with
  | nil => cases (h : rs' = []); exact fun _ h => nomatch h
  | cons y rs ih =>
    obtain ⟨y', rs', rfl, hy, h⟩ := h
    intro x hx
    rcases List.mem_cons.1 hx with rfl | hx
    · rw [(hR _ _ hy).1]; exact hc _ (List.mem_cons_self ..)
    · exact ih h (fun z hz => hc z (List.mem_cons_of_mem _ hz)) x hx

mutual
private theorem complete_same {R : Rule → Rule → Prop} (hR : KeepsMeaning env r R) : (p p' : PolicyNode) → Rulewise R p p' → Complete p → Complete p'
  | .policy _ _, .policy _ _, ha, hc => by
    cases ha with
    | policy hi => exact ⟨hc.1, effects_same hR hi hc.2⟩
  | .policySet _ ps, .policySet _ ps', ha, hc => by
    cases ha with
    | policySet ha => exact ⟨hc.1, allComplete_same hR ps ps' ha hc.2⟩
  | .policy _ _, .policySet _ _, ha, _ => by cases ha
  | .policySet _ _, .policy _ _, ha, _ => by cases ha
private theorem allComplete_same {R : Rule → Rule → Prop} (hR : KeepsMeaning env r R) : (ps ps' : List PolicyNode) →
    AllRulewise R ps ps' → AllComplete ps → AllComplete ps'
  | [], [], _, _ => trivial
  | p :: ps, p' :: ps', ha, hc => by
    cases ha with
    | cons ha has => exact ⟨complete_same hR p p' ha hc.1, allComplete_same hR ps ps' has hc.2⟩
  | [], _ :: _, ha, _ => by cases ha
  | _ :: _, [], ha, _ => by cases ha
end

private theorem keeps_response {R : Rule → Rule → Prop} (hR : KeepsMeaning env r R) {p p' : PolicyNode}
    (h : Rulewise R p p') (hc : Complete p)
    (hs : StatelessPip (some r)) {w w' : World} (hw : History env.re w) (hw' : History env.re w') :
    (pdpEvaluate env (some p') (some r) w').1 = (pdpEvaluate env (some p) (some r) w).1 := by
  obtain ⟨d, hd, h1⟩ := C64_pdp env r hs p hc hw
  obtain ⟨d', hd', h2⟩ := C64_pdp env r hs p' (complete_same hR p p' h hc) hw'
  rw [h1, h2, (hd' d).1 (tree_same hR p p' h ((hd d).2 rfl))]

/-- **C112.** Rewriting conditions anywhere in a policy with boolean algebra changes no response: not the
decision, and not when evaluation fails either. -/
theorem C112_boolean_algebra (env : Env) (p p' : PolicyNode) (r : Request) (h : Rewritten p p') (hc : Complete p)
    (hs : StatelessPip (some r)) {w w' : World} (hw : History env.re w) (hw' : History env.re w') :
    (pdpEvaluate env (some p') (some r) w').1 = (pdpEvaluate env (some p) (some r) w).1 :=
  keeps_response (rewritten_keeps hs) h hc hs hw hw'

/-- **C112, expressions.** Expressions that differ by boolean algebra have the same value, and one raises an
exception exactly if the other does. -/
theorem C112_expression (env : Env) (r : Request) {e e' : Expr} (h : SameExpr e e')
    (hs : StatelessPip (some r)) {w w' : World} (hw : History env.re w) (hw' : History env.re w') (x : PyVal) :
    (e.evaluate env (some r) w).1 = .ok x ↔ (e'.evaluate env (some r) w').1 = .ok x := by
  rw [C64_expression env r hs e hw, C64_expression env r hs e' hw', same_means hs h]

private theorem each_bools {α : Type} {R : α → Bool → Prop} {l : List α} (hu : ∀ a ∈ l, ∀ b, R a b → R a true → b = true)
    {bs : List Bool} (h : Each R l bs) :
    (∀ a ∈ l, ∃ b, R a b) ∧ ((∀ b ∈ bs, b = true) ↔ ∀ a ∈ l, R a true) := by
  induction l generalizing bs with
  | nil => cases (h : bs = []); simp
  | cons a l ih =>
    obtain ⟨b, bs, rfl, hb, h⟩ := h
    obtain ⟨h1, h2⟩ := ih (fun a ha => hu a (List.mem_cons_of_mem _ ha)) h
    simp only [List.forall_mem_cons, h2]
    exact ⟨⟨⟨b, hb⟩, h1⟩, and_congr_left fun _ => ⟨fun e => e ▸ hb, hu a (List.mem_cons_self ..) b hb⟩⟩

private theorem bools_each {α : Type} {R : α → Bool → Prop} {l : List α} (h : ∀ a ∈ l, ∃ b, R a b) : ∃ bs, Each R l bs := by
  induction l with
  | nil => exact ⟨[], rfl⟩
  | cons a l ih =>
    obtain ⟨bs, hbs⟩ := ih fun a ha => h a (List.mem_cons_of_mem _ ha)
    obtain ⟨b, hb⟩ := h a (List.mem_cons_self ..)
    exact ⟨b :: bs, b, bs, rfl, hb, hbs⟩

/-- A section without alternatives, by what is among its match elements. -/
private theorem section_single {cs : List TargetChild} (h : cs.length ≤ 1)
    (hu : ∀ c ∈ cs, ∀ m ∈ c.matches_, ∀ b, MatchMeans env r m b → MatchMeans env r m true → b = true) :
    (∀ es, SectionMeans env r cs es → (∀ c ∈ cs, ∀ m ∈ c.matches_, ∃ b, MatchMeans env r m b) ∧
      (SectionMatches es ↔ ∀ c ∈ cs, ∀ m ∈ c.matches_, MatchMeans env r m true)) ∧
    ((∀ c ∈ cs, ∀ m ∈ c.matches_, ∃ b, MatchMeans env r m b) → ∃ es, SectionMeans env r cs es) := by
  match cs, h, hu with
  | [], _, _ => exact ⟨fun es h => by cases (h : es = []); simp [SectionMatches], fun _ => ⟨[], rfl⟩⟩
  | [c], _, hu =>
    refine ⟨fun es h => ?_, fun h => ?_⟩
    · obtain ⟨bs, _, rfl, h, h'⟩ := h
      cases h'
      obtain ⟨h1, h2⟩ := each_bools (hu c (List.mem_cons_self ..)) h
      refine ⟨by simpa using h1, ?_⟩
      simpa [SectionMatches] using h2
    · obtain ⟨bs, hbs⟩ := bools_each (h c (List.mem_cons_self ..))
      exact ⟨[bs], bs, [], rfl, hbs, rfl⟩
  | _ :: _ :: _, h, _ => simp at h

/-- A target without alternatives, by what is among its match elements. -/
private theorem target_single {t : Target} (h1 : t.subjects.length ≤ 1) (h2 : t.resources.length ≤ 1)
    (h3 : t.actions.length ≤ 1) (h4 : t.environments.length ≤ 1)
    (hu : ∀ m ∈ allMatches t, ∀ b, MatchMeans env r m b → MatchMeans env r m true → b = true) (b : Bool) :
    Applies env r (some t) b ↔ (∀ m ∈ allMatches t, ∃ b, MatchMeans env r m b) ∧
      (b = true ↔ ∀ m ∈ allMatches t, MatchMeans env r m true) := by
  have hm : ∀ P : Match → Prop, (∀ m ∈ allMatches t, P m) ↔ (∀ c ∈ t.subjects, ∀ m ∈ c.matches_, P m) ∧
      (∀ c ∈ t.resources, ∀ m ∈ c.matches_, P m) ∧ (∀ c ∈ t.actions, ∀ m ∈ c.matches_, P m) ∧
      (∀ c ∈ t.environments, ∀ m ∈ c.matches_, P m) := by
    intro P
    simp only [allMatches, List.mem_flatMap, List.mem_append]
    constructor
    · intro h
      exact ⟨fun c hc m hm => h m ⟨c, by simp [hc], hm⟩, fun c hc m hm => h m ⟨c, by simp [hc], hm⟩,
        fun c hc m hm => h m ⟨c, by simp [hc], hm⟩, fun c hc m hm => h m ⟨c, by simp [hc], hm⟩⟩
    · rintro ⟨k1, k2, k3, k4⟩ m ⟨c, hc, hm⟩
      rcases hc with ((hc | hc) | hc) | hc
      · exact k1 c hc m hm
      · exact k2 c hc m hm
      · exact k3 c hc m hm
      · exact k4 c hc m hm
  obtain ⟨u1, u2, u3, u4⟩ := (hm _).1 hu
  obtain ⟨a1, b1⟩ := section_single h1 u1
  obtain ⟨a2, b2⟩ := section_single h2 u2
  obtain ⟨a3, b3⟩ := section_single h3 u3
  obtain ⟨a4, b4⟩ := section_single h4 u4
  rw [hm, hm]
  simp only [Applies]
  constructor
  · rintro ⟨ss, rs, as, es, k1, k2, k3, k4, hb⟩
    rw [(a1 ss k1).2, (a2 rs k2).2, (a3 as k3).2, (a4 es k4).2] at hb
    exact ⟨⟨(a1 ss k1).1, (a2 rs k2).1, (a3 as k3).1, (a4 es k4).1⟩, hb⟩
  · rintro ⟨⟨k1, k2, k3, k4⟩, hb⟩
    obtain ⟨ss, k1⟩ := b1 k1
    obtain ⟨rs, k2⟩ := b2 k2
    obtain ⟨as, k3⟩ := b3 k3
    obtain ⟨es, k4⟩ := b4 k4
    refine ⟨ss, rs, as, es, k1, k2, k3, k4, ?_⟩
    rw [(a1 ss k1).2, (a2 rs k2).2, (a3 as k3).2, (a4 es k4).2]
    exact hb

private theorem wellTyped_inst {dt : Option String} {t : AVClass} (ht : classLookup env.classMap dt = some t) {v : AttrVal}
    (h : WellTyped env.classMap dt v) : v.isInst t = true := by
  obtain ⟨d, c, rfl, hc, hv⟩ := h
  simp only [classLookup] at ht
  rw [hc] at ht; injection ht with ht; rwa [← ht]

private theorem pipValues_inst {pip : Pip} {d : Designator} {t : AVClass} (ht : classLookup env.classMap d.dataType = some t)
    {ss : List CtxSubject} {known vs : List AttrVal} (h : PipValues env r pip d ss known vs)
    (hk : ∀ v ∈ known, v.isInst t = true) : ∀ v ∈ vs, v.isInst t = true := by
  induction h with
  | nil => exact hk
  | cons h1 _ hg _ ih =>
    refine ih ?_
    intro v hv
    rcases List.mem_append.1 hv with hv | hv
    · rcases List.mem_append.1 hv with hv | hv
      · exact hk v hv
      · exact wellTyped_inst ht (h1 v hv)
    · cases hg with
      | nothing => cases hv
      | @first it vs _ _ hw =>
        split at hv
        · cases hv
        · exact wellTyped_inst ht (hw v hv)
      | more _ _ _ hw =>
        rw [List.mem_filter] at hv
        exact wellTyped_inst ht (hw v hv.1 (by simpa using hv.2))

private theorem designated_inst {cat : Category} {d : Designator} {vs : List AttrVal} {t : AVClass}
    (ht : classLookup env.classMap d.dataType = some t) (h : DesignatorMeans env r cat d vs) :
    ∀ v ∈ vs, v.isInst t = true := by
  cases h with
  | request _ _ h => exact fun v hv => wellTyped_inst ht (h v hv)
  | pip _ h => exact pipValues_inst ht h fun _ hv => nomatch hv

/-- The comparisons of a match element. -/
private theorem compared {m : Match} {t : AVClass} {v : AttrVal} (hf : m.func = some (.equal t)) (hv : m.value = some v)
    (hi : v.isInst t = true) {vs : List AttrVal} (hw : ∀ w ∈ vs, w.isInst t = true) :
    (∀ xs, Each (MatchesValue env m) vs xs →
      ((∃ x ∈ xs, ¬ RegardedFalse x) ↔ ∃ w ∈ vs, SameValue v.value w.value)) ∧ ∃ xs, Each (MatchesValue env m) vs xs := by
  induction vs with
  | nil => exact ⟨fun xs h => by cases (h : xs = []); simp, [], rfl⟩
  | cons w vs ih =>
    obtain ⟨h1, xs, h2⟩ := ih fun w h => hw w (List.mem_cons_of_mem _ h)
    constructor
    · rintro _ ⟨x, xs, rfl, ⟨f, hf', hm, -⟩, hxs⟩
      rw [hf] at hf'; injection hf' with hf'; subst hf'
      rw [hv] at hm
      simp only [optAv] at hm
      have hcons : ∀ {α : Type} (P : α → Prop) (a : α) (l : List α), (∃ x ∈ a :: l, P x) ↔ P a ∨ ∃ x ∈ l, P x := by
        intro α P a l; simp
      rw [hcons, hcons, h1 xs hxs]
      refine or_congr_left ?_
      cases hm with
      | @equal _ _ _ b _ _ hb =>
        rw [← hb]
        cases b with
        | false => exact ⟨fun h => absurd .no h, fun h => nomatch h⟩
        | true => exact ⟨fun _ => rfl, fun _ h => nomatch h⟩
    · have hwi := hw w (List.mem_cons_self ..)
      by_cases hsame : SameValue v.value w.value
      · exact ⟨.native (.bool true) :: xs, _, _, rfl, ⟨_, hf, by rw [hv]; exact .equal hi hwi (by simp [hsame]),
          fun _ _ h => nomatch h⟩, h2⟩
      · exact ⟨.native (.bool false) :: xs, _, _, rfl, ⟨_, hf, by rw [hv]; exact .equal hi hwi (by simp [hsame]),
          fun _ _ h => nomatch h⟩, h2⟩

/-- Match element and expression are true, false and failing alike. -/
private theorem says_as_expr {m : Match} {e : Expr} (h : SaysAsExpr env m e) (b : Bool) :
    MatchMeans env r m b ↔ Means env r e (.native (.bool b)) := by
  obtain ⟨t, v, x, dt, hf, hv, hi, ht, hx, rfl⟩ := h
  have hvals : ∀ y, Means env r x y ↔ ∃ vs, y = .bag ⟨some t, vs⟩ ∧ MatchValues env r m vs := by
    intro y
    rcases hx with ⟨cat, d, h1, rfl, rfl⟩ | ⟨h1, s, h2, rfl, rfl⟩
    · constructor
      · intro h
        cases h with
        | designator h => exact ⟨_, by rw [ht], .inl ⟨cat, d, h1, h⟩⟩
      · rintro ⟨vs, rfl, h⟩
        rcases h with ⟨cat', d', h2, h⟩ | ⟨h2, -⟩
        · rw [h1] at h2; injection h2 with h2; injection h2 with h2 h3; subst h2 h3
          have := Means.designator h
          rwa [ht] at this
        · rw [h1] at h2; cases h2
    · constructor
      · intro h
        cases h with
        | selector h => exact ⟨_, by rw [ht], .inr ⟨h1, s, h2, h⟩⟩
      · rintro ⟨vs, rfl, h⟩
        rcases h with ⟨cat', d', h3, h⟩ | ⟨-, s', h3, h⟩
        · rw [h1] at h3; cases h3
        · rw [h2] at h3; injection h3 with h3; subst h3
          have := Means.selector h
          rwa [ht] at this
  have hinst : ∀ vs, MatchValues env r m vs → ∀ w ∈ vs, w.isInst t = true := by
    intro vs h
    rcases hx with ⟨cat, d, h1, rfl, rfl⟩ | ⟨h1, s, h2, rfl, rfl⟩
    · rcases h with ⟨cat', d', h2, h⟩ | ⟨h2, -⟩
      · rw [h1] at h2; injection h2 with h2; injection h2 with h2 h3; subst h2 h3
        exact designated_inst ht h
      · rw [h1] at h2; cases h2
    · rcases h with ⟨cat', d', h3, h⟩ | ⟨-, s', h3, h⟩
      · rw [h1] at h3; cases h3
      · rw [h2] at h3; injection h3 with h3; subst h3
        obtain ⟨xp, dt, c, ns, -, hdt, hc, -, -, -, rfl⟩ := h
        intro w hw
        obtain ⟨n, -, rfl⟩ := List.mem_map.1 hw
        rw [hdt] at ht
        simp only [classLookup] at ht
        rw [hc] at ht; injection ht with ht; subst ht
        simp [AttrVal.isInst, AVClass.isSub]
  have hbag : ∀ y, Means env r (.apply (some (.bag t)) [.value v]) y ↔ y = .bag ⟨some t, [v]⟩ := by
    intro y
    constructor
    · intro h
      cases h with
      | apply ha hf =>
        cases ha with
        | cons h1 h2 =>
          cases h1; cases h2
          generalize hl : [PyVal.av v] = l at hf
          cases hf with
          | @bag _ vs _ =>
            cases vs with
            | nil => cases hl
            | cons u us =>
              cases us with
              | nil => injection hl with hl; injection hl with hl; subst hl; rfl
              | cons => simp at hl
    · rintro rfl
      exact .apply (.cons .value .nil) (.bag (vs := [v]) (by simpa using hi))
  constructor
  · rintro ⟨vs, xs, h1, h2, h3⟩
    have := (compared (env := env) hf hv hi (hinst vs h1)).1 xs h2
    refine .apply (.cons ((hbag _).2 rfl) (.cons ((hvals _).2 ⟨vs, rfl, h1⟩) .nil)) (.atLeastOneMemberOf rfl rfl ?_)
    rw [h3, this]; simp
  · intro h
    cases h with
    | apply ha hm =>
      cases ha with
      | cons h1 h2 =>
        cases h2 with
        | cons h2 h3 =>
          cases h3
          cases (hbag _).1 h1
          obtain ⟨vs, rfl, h4⟩ := (hvals _).1 h2
          obtain ⟨h5, xs, h6⟩ := compared (env := env) hf hv hi (hinst vs h4)
          cases hm with
          | atLeastOneMemberOf _ _ hb =>
            refine ⟨vs, xs, h4, h6, ?_⟩
            rw [h5 xs h6, hb]; simp

private theorem each_mem {α β : Type} {R : α → β → Prop} {l : List α} {l' : List β} (h : Each R l l') :
    (∀ a ∈ l, ∃ b ∈ l', R a b) ∧ ∀ b ∈ l', ∃ a ∈ l, R a b := by
  induction l generalizing l' with
  | nil => cases (h : l' = []); simp
  | cons a l ih =>
    obtain ⟨b, l', rfl, hab, h⟩ := h
    obtain ⟨h1, h2⟩ := ih h
    constructor
    · intro x hx
      rcases List.mem_cons.1 hx with rfl | hx
      · exact ⟨b, List.mem_cons_self .., hab⟩
      · obtain ⟨y, hy, hr⟩ := h1 x hx
        exact ⟨y, List.mem_cons_of_mem _ hy, hr⟩
    · intro x hx
      rcases List.mem_cons.1 hx with rfl | hx
      · exact ⟨a, List.mem_cons_self .., hab⟩
      · obtain ⟨y, hy, hr⟩ := h2 x hx
        exact ⟨y, List.mem_cons_of_mem _ hy, hr⟩

private theorem asCondition_holds (hs : StatelessPip (some r)) {t : Target} {es : List Expr}
    (h1 : t.subjects.length ≤ 1) (h2 : t.resources.length ≤ 1)
    (h3 : t.actions.length ≤ 1) (h4 : t.environments.length ≤ 1)
    (h : Each (SaysAsExpr env) (allMatches t) es) (b : Bool) :
    Applies env r (some t) b ↔ Holds env r (some { expression := some (.apply (some .and) es) }) b := by
  obtain ⟨k1, k2⟩ := each_mem h
  rw [target_single h1 h2 h3 h4]
  · simp only [Holds]
    have e1 : (∀ m ∈ allMatches t, ∃ b, MatchMeans env r m b) ↔ ∀ e ∈ es, ∃ b, Means env r e (.native (.bool b)) := by
      constructor
      · intro hm e he
        obtain ⟨m, hm', hr⟩ := k2 e he
        obtain ⟨b, hb⟩ := hm m hm'
        exact ⟨b, (says_as_expr hr b).1 hb⟩
      · intro hm m he
        obtain ⟨e, hm', hr⟩ := k1 m he
        obtain ⟨b, hb⟩ := hm e hm'
        exact ⟨b, (says_as_expr hr b).2 hb⟩
    have e2 : (∀ m ∈ allMatches t, MatchMeans env r m true) ↔ ∀ e ∈ es, Means env r e (.native (.bool true)) := by
      constructor
      · intro hm e he
        obtain ⟨m, hm', hr⟩ := k2 e he
        exact (says_as_expr hr _).1 (hm m hm')
      · intro hm m he
        obtain ⟨e, hm', hr⟩ := k1 m he
        exact (says_as_expr hr _).2 (hm e hm')
    rw [e1, e2]
    constructor
    · intro h
      refine ⟨_, .native (.bool b), rfl, (and_means hs).2 ⟨b, rfl, h⟩, ?_⟩
      cases b with
      | false => exact ⟨(fun h => nomatch h), fun h => absurd .no h⟩
      | true => exact ⟨(fun _ h => nomatch h), fun _ => rfl⟩
    · rintro ⟨e, x, he, hx, hb⟩
      injection he with he; subst he
      obtain ⟨b', rfl, h⟩ := (and_means hs).1 hx
      have : b = b' := by
        cases b' with
        | false =>
          cases b with
          | false => rfl
          | true => exact absurd .no (hb.1 rfl)
        | true => exact hb.2 fun h => nomatch h
      rw [this]; exact h
  · intro m hm b hb hb'
    obtain ⟨e, _, hr⟩ := k1 m hm
    exact bool_inj (means_unique hs ((says_as_expr hr b).1 hb) ((says_as_expr hr true).1 hb'))

private theorem asCondition_keeps (hs : StatelessPip (some r)) :
    KeepsMeaning env r (fun rule rule' => rule' = rule ∨ AsCondition env rule rule' ∨ AsCondition env rule' rule) := by
  intro rule rule' h
  rcases h with rfl | h | h
  · exact ⟨rfl, fun _ h => h⟩
  · obtain ⟨t, es, ht, hc, h1, h2, h3, h4, h5, rfl⟩ := h
    refine ⟨rfl, fun d hd => ?_⟩
    have hh := asCondition_holds hs h1 h2 h3 h4 h5
    cases hd with
    | targetFalse h => rw [ht, hh] at h; exact .conditionFalse rfl h
    | conditionFalse h h' => rw [hc] at h'; cases h'
    | effect h h' h'' => rw [ht, hh] at h; exact .effect rfl h h''
    | targetFails h => exact .conditionFails rfl fun b hb => h b (by rw [ht, hh]; exact hb)
    | conditionFails h h' => rw [hc] at h'; exact absurd rfl (h' true)
  · obtain ⟨t, es, ht, hc, h1, h2, h3, h4, h5, rfl⟩ := h
    refine ⟨rfl, fun d hd => ?_⟩
    have hh := asCondition_holds hs h1 h2 h3 h4 h5
    cases hd with
    | targetFalse h => cases h
    | conditionFalse h h' => exact .targetFalse (by rw [ht, hh]; exact h')
    | effect h h' h'' => exact .effect (by rw [ht, hh]; exact h') (by rw [hc]; rfl) h''
    | targetFails h => exact absurd rfl (h true)
    | conditionFails h h' => exact .targetFails fun b hb => h' b (by rw [ht, hh] at hb; exact hb)

/-- **C113.** Writing the targets of rules, anywhere in a policy, as conditions, or such conditions as targets,
changes no response. -/
theorem C113_target_as_condition (env : Env) (p p' : PolicyNode) (r : Request)
    (h : Rulewise (fun rule rule' => rule' = rule ∨ AsCondition env rule rule' ∨ AsCondition env rule' rule) p p')
    (hc : Complete p) (hs : StatelessPip (some r)) {w w' : World} (hw : History env.re w) (hw' : History env.re w') :
    (pdpEvaluate env (some p') (some r) w').1 = (pdpEvaluate env (some p) (some r) w).1 :=
  keeps_response (asCondition_keeps hs) h hc hs hw hw'

section NonVacuity
open Samples

/-- "The action is `s`": as a comparison with the only action. -/
def Samples.isAction (s : String) : Expr :=
  .apply (some (.equal stringClass)) [.apply (some (.oneAndOnly stringClass)) [.designator .action actDes], .value (str s)]

/-- A Permit rule with this condition. -/
def Samples.permitIf (e : Expr) : Rule := { effect := some .permit, target := none, condition := some { expression := some e } }

/-- The hypotheses of `C112_boolean_algebra` hold of a policy set with a nested, doubly negated condition, which is
flattened; the decision is Permit. -/
example :
    let a := isAction "read"
    let n := Expr.apply (some .not) [isAction "write"]
    let e := Expr.apply (some .and) [.apply (some .and) [.apply (some .not) [.apply (some .not) [a]], n], a]
    let e' := Expr.apply (some .and) [n, a]
    let p := PolicyNode.policySet (hdr .denyOverrides) [.policy (hdr .firstApplicable) [roleRule .deny "guest", permitIf e]]
    let p' := PolicyNode.policySet (hdr .denyOverrides) [.policy (hdr .firstApplicable) [roleRule .deny "guest", permitIf e']]
    Rewritten p p' ∧ Complete p ∧ StatelessPip (some req) ∧ History Samples.env.re start ∧
      (pdpEvaluate Samples.env (some p) (some req) start).1 = .ok { results := [{ decision := .permit, status := .ok }] } := by
  refine ⟨.policySet (.cons (.policy ⟨_, _, rfl, .inl rfl, _, _, rfl, .inr ⟨_, _, _, _, rfl, rfl, rfl, ?_, rfl⟩, rfl⟩) .nil),
    ?_, ?_, .start, rfl⟩
  · refine .trans (.inside (pre := []) (.inside (pre := []) (.doubleNot trivial))) ?_
    refine .trans .flatten ?_
    refine .trans (.reorder (args' := [isAction "read", isAction "read", _]) ?_) (.trans .repeated (.reorder (.swap _ _ _)))
    exact .cons _ (.swap _ _ _)
  · simp [Complete, AllComplete, hdr, roleRule, permitIf]
  · intro _ hr pip h; injection hr with hr; subst hr; simp [req] at h

/-- The restriction in double negation is needed: a designator with values is regarded as true, its negation
fails. -/
example :
    (pdpEvaluate Samples.env (some (.policy (hdr .denyOverrides) [permitIf (.designator .subject roleDes)])) (some req) start).1
      = .ok { results := [{ decision := .permit, status := .ok }] } ∧
    (pdpEvaluate Samples.env (some (.policy (hdr .denyOverrides)
        [permitIf (.apply (some .not) [.apply (some .not) [.designator .subject roleDes]])])) (some req) start).1
      = .ok { results := [{ decision := .indeterminate, status := .ok }] } := ⟨rfl, rfl⟩

/-- The match element `roleMatch` as an expression. -/
def Samples.hasRole (s : String) : Expr :=
  .apply (some (.atLeastOneMemberOf stringClass)) [.apply (some (.bag stringClass)) [.value (str s)], .designator .subject roleDes]

/-- The match element `actMatch` as an expression. -/
def Samples.doesAction (s : String) : Expr :=
  .apply (some (.atLeastOneMemberOf stringClass)) [.apply (some (.bag stringClass)) [.value (str s)], .designator .action actDes]

/-- The hypotheses of `C113_target_as_condition` hold of a policy set with a rule whose target has two sections; the
decision is Deny. -/
example :
    let t : Target := { roleTarget "admin" with
      subjects := [{ matches_ := [roleMatch "admin", roleMatch "staff"] }], actions := [{ matches_ := [actMatch "read"] }] }
    let e := Expr.apply (some .and) [hasRole "admin", hasRole "staff", doesAction "read"]
    let p := PolicyNode.policySet (hdr .permitOverrides)
      [.policy (hdr .firstApplicable) [roleRule .permit "guest", { roleRule .deny "admin" with target := some t }]]
    let p' := PolicyNode.policySet (hdr .permitOverrides) [.policy (hdr .firstApplicable)
      [roleRule .permit "guest", { always .deny with condition := some { expression := some e } }]]
    Rulewise (fun rule rule' => rule' = rule ∨ AsCondition Samples.env rule rule' ∨ AsCondition Samples.env rule' rule) p p' ∧
      Complete p ∧ StatelessPip (some req) ∧ History Samples.env.re start ∧
      (pdpEvaluate Samples.env (some p) (some req) start).1 = .ok { results := [{ decision := .deny, status := .ok }] } := by
  refine ⟨.policySet (.cons (.policy ⟨_, _, rfl, .inl rfl, _, _, rfl, .inr (.inl ⟨_, _, rfl, rfl, by decide, by decide,
    by decide, by decide, ?_, rfl⟩), rfl⟩) .nil), ?_, ?_, .start, rfl⟩
  · refine ⟨_, _, rfl, ?_, _, _, rfl, ?_, _, _, rfl, ?_, rfl⟩ <;>
      exact ⟨stringClass, _, _, _, rfl, rfl, rfl, rfl, .inl ⟨_, _, rfl, rfl, rfl⟩, rfl⟩
  · simp [Complete, AllComplete, hdr, roleRule]
  · intro _ hr pip h; injection hr with hr; subst hr; simp [req] at h

/-- A target that cannot be evaluated as a condition: both rules are Indeterminate. -/
example :
    (pdpEvaluate Samples.env (some (.policy (hdr .denyOverrides) [failing .permit])) (some req) start).1
      = .ok { results := [{ decision := .indeterminate, status := .ok }] } ∧
    (pdpEvaluate Samples.env (some (.policy (hdr .denyOverrides) [permitIf (.apply (some .and)
        [.apply (some (.atLeastOneMemberOf stringClass)) [.apply (some (.bag stringClass)) [.value (str "x")],
          .designator .subject missingDes]])])) (some req) start).1
      = .ok { results := [{ decision := .indeterminate, status := .ok }] } := ⟨rfl, rfl⟩

end NonVacuity
end Xacml
