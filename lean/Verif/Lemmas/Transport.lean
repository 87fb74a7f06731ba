import Verif.Lemmas.Semantics
import Verif.Spec.Relevance

/-!
# Carrying meanings over from one policy and request to another

Two policies of the same shape have the same decisions for two requests when each designator and selector of
one policy gives, up to `Q`, what the corresponding one of the other policy gives.
-/
namespace Xacml
open Spec

variable {env : Env} {r r' : Request}

theorem each_perm_zip {α β} {R : α → β → Prop} {l l' : List α} (hp : l.Perm l') : ∀ {bs : List β}, Each R l bs →
    ∃ bs', (l.zip bs).Perm (l'.zip bs') ∧ Each R l' bs' := by
  induction hp with
  | nil => intro bs h; exact ⟨[], by simp, rfl⟩
  | cons a _ ih =>
    rintro _ ⟨b, bs, rfl, h1, h2⟩
    obtain ⟨bs', hb, he⟩ := ih h2
    exact ⟨b :: bs', by simpa using hb, b, bs', rfl, h1, he⟩
  | swap a b l =>
    rintro _ ⟨x, _, rfl, h1, y, bs, rfl, h2, h3⟩
    exact ⟨y :: x :: bs, .swap _ _ _, y, _, rfl, h2, x, bs, rfl, h1, h3⟩
  | trans _ _ ih1 ih2 =>
    intro bs h
    obtain ⟨bs1, hb1, he1⟩ := ih1 h
    obtain ⟨bs2, hb2, he2⟩ := ih2 he1
    exact ⟨bs2, hb1.trans hb2, he2⟩

theorem each_map_snd {α β} {R : α → β → Prop} {l : List α} {bs : List β} (h : Each R l bs) :
    (l.zip bs).map (·.2) = bs := by
  induction l generalizing bs with
  | nil => rw [each_nil] at h; subst h; rfl
  | cons a l ih => obtain ⟨b, bs', rfl, _, h⟩ := h; simp [ih h]

theorem each_perm {α β} {R : α → β → Prop} {l l' : List α} (hp : l.Perm l') {bs : List β} (h : Each R l bs) :
    ∃ bs', bs.Perm bs' ∧ Each R l' bs' := by
  obtain ⟨bs', hb, he⟩ := each_perm_zip hp h
  refine ⟨bs', ?_, he⟩
  have := hb.map (·.2)
  rwa [each_map_snd h, each_map_snd he] at this

theorem each_flip {α β} {R : α → β → Prop} {l : List α} {l' : List β} (h : Each R l l') :
    Each (fun b a => R a b) l' l := by
  induction l generalizing l' with
  | nil => rw [each_nil] at h; subst h; rfl
  | cons a l ih => obtain ⟨b, bs, rfl, h1, h2⟩ := h; exact ⟨a, l, rfl, h1, ih h2⟩

theorem each_imp {α β} {R S : α → β → Prop} (hRS : ∀ a b, R a b → S a b) {l : List α} {l' : List β}
    (h : Each R l l') : Each S l l' := by
  induction l generalizing l' with
  | nil => exact h
  | cons a l ih => obtain ⟨b, bs, rfl, h1, h2⟩ := h; exact ⟨b, bs, rfl, hRS _ _ h1, ih h2⟩

/-- Elements related by `R` have the same `S`/`T` partners. -/
theorem each_along {α β γ} {R : α → β → Prop} {S : α → γ → Prop} {T : β → γ → Prop}
    (hst : ∀ a b, R a b → ∀ c, S a c → T b c) {l : List α} {l' : List β} (h : Each R l l') {cs : List γ}
    (hc : Each S l cs) : Each T l' cs := by
  induction l generalizing l' cs with
  | nil => rw [each_nil] at h hc; subst h hc; rfl
  | cons a l ih =>
    obtain ⟨b, bs, rfl, h1, h2⟩ := h
    obtain ⟨c, cs', rfl, h3, h4⟩ := hc
    exact ⟨c, cs', rfl, hst _ _ h1 _ h3, ih h2 h4⟩

theorem each_map_right {α β} {R : α → β → Prop} (f : α → β) {l : List α} (h : ∀ a ∈ l, R a (f a)) :
    Each R l (l.map f) := by
  induction l with
  | nil => rfl
  | cons a l ih =>
    simp only [List.forall_mem_cons] at h
    exact ⟨_, _, rfl, h.1, ih h.2⟩

theorem each_self {α} {R : α → α → Prop} {l : List α} (h : ∀ a ∈ l, R a a) : Each R l l := by
  have := each_map_right (R := R) id h
  simpa using this

/-- What a reading gives: element type and values of the bag. -/
def ReadMeans (env : Env) (r : Request) : Reading → Option AVClass → List AttrVal → Prop
  | .designator cat d, t, vs => t = classLookup env.classMap d.dataType ∧ DesignatorMeans env r cat d vs
  | .selector s, t, vs => t = classLookup env.classMap s.dataType ∧ SelectorMeans env r s vs

/-- Related readings give related bags. -/
def Carries (env : Env) (r r' : Request) (Q : PyVal → PyVal → Prop) (l l' : Reading) : Prop :=
  ∀ t vs, ReadMeans env r l t vs → ∃ vs', ReadMeans env r' l' t vs' ∧ vs.Perm vs' ∧ Q (.bag ⟨t, vs⟩) (.bag ⟨t, vs'⟩)

/-- A function gives related values for related arguments. -/
def FuncRespects (re : String → Except Exc (String → Bool)) (Q : PyVal → PyVal → Prop) (f : Func) : Prop :=
  ∀ xs xs', Each Q xs xs' → ∀ x, FuncMeans re f xs x → ∃ x', FuncMeans re f xs' x' ∧ Q x x'

mutual
/-- Expressions of the same shape with related readings and functions in `F`. -/
inductive ExprRel (L : Reading → Reading → Prop) (F : Func → Prop) : Expr → Expr → Prop
  | value (v) : ExprRel L F (.value v) (.value v)
  | designator {c d c' d'} : L (.designator c d) (.designator c' d') → ExprRel L F (.designator c d) (.designator c' d')
  | selector {s s'} : L (.selector s) (.selector s') → ExprRel L F (.selector s) (.selector s')
  | apply {f args args'} : (∀ g, f = some g → F g) → ExprsRel L F args args' → ExprRel L F (.apply f args) (.apply f args')
/-- The same for lists. -/
inductive ExprsRel (L : Reading → Reading → Prop) (F : Func → Prop) : List Expr → List Expr → Prop
  | nil : ExprsRel L F [] []
  | cons {e e' es es'} : ExprRel L F e e' → ExprsRel L F es es' → ExprsRel L F (e :: es) (e' :: es')
end

mutual
theorem ExprRel.flip {L : Reading → Reading → Prop} {F : Func → Prop} : {e e' : Expr} → ExprRel L F e e' →
    ExprRel (fun a b => L b a) F e' e
  | _, _, .value v => .value v
  | _, _, .designator h => .designator h
  | _, _, .selector h => .selector h
  | _, _, .apply hf h => .apply hf h.flip
theorem ExprsRel.flip {L : Reading → Reading → Prop} {F : Func → Prop} : {es es' : List Expr} → ExprsRel L F es es' →
    ExprsRel (fun a b => L b a) F es' es
  | _, _, .nil => .nil
  | _, _, .cons h hs => .cons h.flip hs.flip
end

mutual
theorem means_carry {Q : PyVal → PyVal → Prop} (hq : ∀ x, Q x x) {L : Reading → Reading → Prop} {F : Func → Prop}
    (hL : ∀ l l', L l l' → Carries env r r' Q l l') (hF : ∀ f, F f → FuncRespects env.re Q f) :
    {e e' : Expr} → ExprRel L F e e' → ∀ x, Means env r e x → ∃ x', Means env r' e' x' ∧ Q x x'
  | _, _, .value v, x, h => by cases h; exact ⟨_, .value, hq _⟩
  | _, _, .designator hl, x, h => by
    cases h with
    | designator h =>
      obtain ⟨vs', ⟨ht, hm⟩, _, hb⟩ := hL _ _ hl _ _ ⟨rfl, h⟩
      rw [ht] at hb
      exact ⟨_, .designator hm, by rw [ht]; exact hb⟩
  | _, _, .selector hl, x, h => by
    cases h with
    | selector h =>
      obtain ⟨vs', ⟨ht, hm⟩, _, hb⟩ := hL _ _ hl _ _ ⟨rfl, h⟩
      rw [ht] at hb
      exact ⟨_, .selector hm, by rw [ht]; exact hb⟩
  | _, _, .apply hf hs, x, h => by
    cases h with
    | apply ha hx =>
      obtain ⟨xs', ha', hxs⟩ := meansAll_carry hq hL hF hs _ ha
      obtain ⟨x', hx', hxx⟩ := hF _ (hf _ rfl) _ _ hxs _ hx
      exact ⟨x', .apply ha' hx', hxx⟩
theorem meansAll_carry {Q : PyVal → PyVal → Prop} (hq : ∀ x, Q x x) {L : Reading → Reading → Prop} {F : Func → Prop}
    (hL : ∀ l l', L l l' → Carries env r r' Q l l') (hF : ∀ f, F f → FuncRespects env.re Q f) :
    {es es' : List Expr} → ExprsRel L F es es' → ∀ xs, MeansAll env r es xs → ∃ xs', MeansAll env r' es' xs' ∧ Each Q xs xs'
  | _, _, .nil, xs, h => by cases h; exact ⟨[], .nil, rfl⟩
  | _, _, .cons he hs, xs, h => by
    cases h with
    | cons h1 h2 =>
      obtain ⟨x', hx, hxx⟩ := means_carry hq hL hF he _ h1
      obtain ⟨xs', hxs, hxxs⟩ := meansAll_carry hq hL hF hs _ h2
      exact ⟨_, .cons hx hxs, _, _, rfl, hxx, hxxs⟩
end

/-- Conditions with related expressions. -/
def CondRel (L : Reading → Reading → Prop) (F : Func → Prop) (c c' : Option Condition) : Prop :=
  (c = none ∧ c' = none) ∨ ∃ a b, c = some a ∧ c' = some b ∧
    ((a.expression = none ∧ b.expression = none) ∨ ∃ e e', a.expression = some e ∧ b.expression = some e' ∧ ExprRel L F e e')

theorem CondRel.flip {L : Reading → Reading → Prop} {F : Func → Prop} {c c' : Option Condition} (h : CondRel L F c c') :
    CondRel (fun a b => L b a) F c' c := by
  rcases h with ⟨h1, h2⟩ | ⟨a, b, h1, h2, h | ⟨e, e', h3, h4, h5⟩⟩
  · exact .inl ⟨h2, h1⟩
  · exact .inr ⟨b, a, h2, h1, .inl ⟨h.2, h.1⟩⟩
  · exact .inr ⟨b, a, h2, h1, .inr ⟨e', e, h4, h3, h5.flip⟩⟩

theorem holds_carry {Q : PyVal → PyVal → Prop} (hq : ∀ x, Q x x) (ht : ∀ x x', Q x x' → (RegardedFalse x ↔ RegardedFalse x'))
    {L : Reading → Reading → Prop} {F : Func → Prop}
    (hL : ∀ l l', L l l' → Carries env r r' Q l l') (hF : ∀ f, F f → FuncRespects env.re Q f)
    {c c' : Option Condition} (h : CondRel L F c c') {b : Bool} (hb : Holds env r c b) : Holds env r' c' b := by
  rcases h with ⟨rfl, rfl⟩ | ⟨a, b', rfl, rfl, h | ⟨e, e', h3, h4, h5⟩⟩
  · exact hb
  · obtain ⟨e, x, he, _⟩ := hb
    rw [h.1] at he
    cases he
  · obtain ⟨e0, x, he, hm, hb⟩ := hb
    rw [h3] at he
    injection he with he
    subst he
    obtain ⟨x', hx', hxx⟩ := means_carry hq hL hF h5 _ hm
    exact ⟨e', x', h4, hx', by rw [← ht _ _ hxx]; exact hb⟩

/-- Match elements that differ in their reading only. -/
def MatchRel (L : Reading → Reading → Prop) (m m' : Match) : Prop :=
  m.value = m'.value ∧ m.func = m'.func ∧
  ((∃ c d c' d', m.designator = some (c, d) ∧ m'.designator = some (c', d') ∧ L (.designator c d) (.designator c' d')) ∨
   (m.designator = none ∧ m'.designator = none ∧
     ((m.selector = none ∧ m'.selector = none) ∨
      ∃ s s', m.selector = some s ∧ m'.selector = some s' ∧ L (.selector s) (.selector s'))))

theorem MatchRel.flip {L : Reading → Reading → Prop} {m m' : Match} (h : MatchRel L m m') :
    MatchRel (fun a b => L b a) m' m := by
  obtain ⟨h1, h2, ⟨c, d, c', d', h3, h4, h5⟩ | ⟨h3, h4, h | ⟨s, s', h5, h6, h7⟩⟩⟩ := h
  · exact ⟨h1.symm, h2.symm, .inl ⟨_, _, _, _, h4, h3, h5⟩⟩
  · exact ⟨h1.symm, h2.symm, .inr ⟨h4, h3, .inl ⟨h.2, h.1⟩⟩⟩
  · exact ⟨h1.symm, h2.symm, .inr ⟨h4, h3, .inr ⟨_, _, h6, h5, h7⟩⟩⟩

theorem matchMeans_carry {Q : PyVal → PyVal → Prop} {L : Reading → Reading → Prop}
    (hL : ∀ l l', L l l' → Carries env r r' Q l l') {m m' : Match} (h : MatchRel L m m') {b : Bool}
    (hb : MatchMeans env r m b) : MatchMeans env r' m' b := by
  obtain ⟨hv, hf, h⟩ := h
  obtain ⟨vs, xs, hvs, hxs, hb⟩ := hb
  obtain ⟨vs', hvs', hp⟩ : ∃ vs', MatchValues env r' m' vs' ∧ vs.Perm vs' := by
    rcases hvs with ⟨cat, d, hd, hm⟩ | ⟨hd, s, hs, hm⟩
    · rcases h with ⟨c, d0, c', d', h3, h4, h5⟩ | ⟨h3, _⟩
      · rw [hd] at h3
        injection h3 with h3
        injection h3 with h31 h32
        subst h31 h32
        obtain ⟨vs', ⟨_, hm'⟩, hp, _⟩ := hL _ _ h5 _ _ ⟨rfl, hm⟩
        exact ⟨vs', .inl ⟨_, _, h4, hm'⟩, hp⟩
      · rw [hd] at h3; cases h3
    · rcases h with ⟨c, d0, c', d', h3, _⟩ | ⟨_, h4, h5 | ⟨s0, s', h5, h6, h7⟩⟩
      · rw [hd] at h3; cases h3
      · rw [hs] at h5; cases h5.1
      · rw [hs] at h5
        injection h5 with h5
        subst h5
        obtain ⟨vs', ⟨_, hm'⟩, hp, _⟩ := hL _ _ h7 _ _ ⟨rfl, hm⟩
        exact ⟨vs', .inr ⟨h4, _, h6, hm'⟩, hp⟩
  obtain ⟨xs', hpx, hxs'⟩ := each_perm hp hxs
  refine ⟨vs', xs', hvs', ?_, ?_⟩
  · refine each_imp (fun v x hx => ?_) hxs'
    obtain ⟨f, h1, h2, h3⟩ := hx
    exact ⟨f, hf ▸ h1, by rw [← hv]; exact h2, h3⟩
  · rw [hb]
    exact ⟨fun ⟨x, hx, h⟩ => ⟨x, hpx.mem_iff.1 hx, h⟩, fun ⟨x, hx, h⟩ => ⟨x, hpx.mem_iff.2 hx, h⟩⟩

/-- Sections with related match elements at the same places. -/
def SectionRel (M : Match → Match → Prop) (cs cs' : List TargetChild) : Prop :=
  Each (fun c c' => Each M c.matches_ c'.matches_) cs cs'

/-- Targets with related match elements at the same places. -/
def TargetRel (M : Match → Match → Prop) (t t' : Option Target) : Prop :=
  (t = none ∧ t' = none) ∨ ∃ a b, t = some a ∧ t' = some b ∧ SectionRel M a.subjects b.subjects ∧
    SectionRel M a.resources b.resources ∧ SectionRel M a.actions b.actions ∧ SectionRel M a.environments b.environments

theorem sectionRel_flip {M N : Match → Match → Prop} (hMN : ∀ m m', M m m' → N m' m) {cs cs' : List TargetChild}
    (h : SectionRel M cs cs') : SectionRel N cs' cs :=
  each_imp (fun _ _ h => each_imp (fun _ _ h => hMN _ _ h) (each_flip h)) (each_flip h)

theorem TargetRel.flip {M N : Match → Match → Prop} (hMN : ∀ m m', M m m' → N m' m) {t t' : Option Target}
    (h : TargetRel M t t') : TargetRel N t' t := by
  rcases h with ⟨h1, h2⟩ | ⟨a, b, h1, h2, h3, h4, h5, h6⟩
  · exact .inl ⟨h2, h1⟩
  · exact .inr ⟨b, a, h2, h1, sectionRel_flip hMN h3, sectionRel_flip hMN h4, sectionRel_flip hMN h5, sectionRel_flip hMN h6⟩

theorem sectionMeans_carry {M : Match → Match → Prop} (hM : ∀ m m', M m m' → ∀ b, MatchMeans env r m b → MatchMeans env r' m' b)
    {cs cs' : List TargetChild} (h : SectionRel M cs cs') {es : List (List Bool)} (he : SectionMeans env r cs es) :
    SectionMeans env r' cs' es := by
  unfold SectionMeans SectionRel at *
  refine each_along (S := fun (c : TargetChild) bs => Each (MatchMeans env r) c.matches_ bs) (fun c c' h bs hb => ?_) h he
  exact each_along (S := MatchMeans env r) (fun m m' h b hb => hM m m' h b hb) h hb

theorem applies_carry {M : Match → Match → Prop} (hM : ∀ m m', M m m' → ∀ b, MatchMeans env r m b → MatchMeans env r' m' b)
    {t t' : Option Target} (h : TargetRel M t t') {b : Bool} (hb : Applies env r t b) : Applies env r' t' b := by
  rcases h with ⟨rfl, rfl⟩ | ⟨a, c, rfl, rfl, h3, h4, h5, h6⟩
  · exact hb
  · obtain ⟨ss, rs, as, es, g1, g2, g3, g4, hb⟩ := hb
    exact ⟨ss, rs, as, es, sectionMeans_carry hM h3 g1, sectionMeans_carry hM h4 g2, sectionMeans_carry hM h5 g3,
      sectionMeans_carry hM h6 g4, hb⟩

theorem ruleMeans_carry {a b : Rule} (he : a.effect = b.effect)
    (ht : ∀ x, Applies env r a.target x ↔ Applies env r' b.target x)
    (hc : ∀ x, Holds env r a.condition x ↔ Holds env r' b.condition x) {d : Decision} (h : RuleMeans env r a d) :
    RuleMeans env r' b d := by
  cases h with
  | targetFalse h => exact .targetFalse ((ht _).1 h)
  | conditionFalse h1 h2 => exact .conditionFalse ((ht _).1 h1) ((hc _).1 h2)
  | effect h1 h2 h3 => exact .effect ((ht _).1 h1) ((hc _).1 h2) (he ▸ h3)
  | targetFails h => exact .targetFails fun x hx => h x ((ht _).2 hx)
  | conditionFails h1 h2 => exact .conditionFails ((ht _).1 h1) fun x hx => h2 x ((hc _).2 hx)

mutual
/-- Policies of the same shape whose targets and rules mean the same, each for its own request. -/
inductive SamePolicy (env : Env) (r r' : Request) : PolicyNode → PolicyNode → Prop
  | policy {h h' rs rs'} : h.alg = h'.alg → (∀ b, Applies env r h.target b ↔ Applies env r' h'.target b) →
      Each (fun a b => a.effect = b.effect ∧ ∀ d, RuleMeans env r a d ↔ RuleMeans env r' b d) rs rs' →
      SamePolicy env r r' (.policy h rs) (.policy h' rs')
  | policySet {h h' ps ps'} : h.alg = h'.alg → (∀ b, Applies env r h.target b ↔ Applies env r' h'.target b) →
      SamePolicies env r r' ps ps' → SamePolicy env r r' (.policySet h ps) (.policySet h' ps')
/-- The same for lists. -/
inductive SamePolicies (env : Env) (r r' : Request) : List PolicyNode → List PolicyNode → Prop
  | nil : SamePolicies env r r' [] []
  | cons {p p' ps ps'} : SamePolicy env r r' p p' → SamePolicies env r r' ps ps' →
      SamePolicies env r r' (p :: ps) (p' :: ps')
end

mutual
theorem SamePolicy.flip : {p p' : PolicyNode} → SamePolicy env r r' p p' → SamePolicy env r' r p' p
  | _, _, .policy h1 h2 h3 => .policy h1.symm (fun b => (h2 b).symm)
      (each_imp (fun _ _ h => ⟨h.1.symm, fun d => (h.2 d).symm⟩) (each_flip h3))
  | _, _, .policySet h1 h2 h3 => .policySet h1.symm (fun b => (h2 b).symm) h3.flip
theorem SamePolicies.flip : {ps ps' : List PolicyNode} → SamePolicies env r r' ps ps' → SamePolicies env r' r ps' ps
  | _, _, .nil => .nil
  | _, _, .cons h hs => .cons h.flip hs.flip
end

theorem each_effects {rs rs' : List Rule}
    (h : Each (fun a b => a.effect = b.effect ∧ ∀ d, RuleMeans env r a d ↔ RuleMeans env r' b d) rs rs') :
    rs.map (·.effect) = rs'.map (·.effect) := by
  induction rs generalizing rs' with
  | nil => rw [each_nil] at h; subst h; rfl
  | cons a rs ih => obtain ⟨b, bs, rfl, h1, h2⟩ := h; simp [h1.1, ih h2]

mutual
theorem policyMeans_carry : {p p' : PolicyNode} → SamePolicy env r r' p p' → ∀ d, PolicyMeans env r p d →
    PolicyMeans env r' p' d
  | _, _, .policy h1 h2 h3, d, h => by
    cases h with
    | rules g1 g2 g3 =>
      rw [each_effects h3]
      exact .rules ((h2 _).1 g1) (h1 ▸ g2) (each_along (fun _ _ h c hc => (h.2 c).1 hc) h3 g3)
    | policyTargetFalse g => exact .policyTargetFalse ((h2 _).1 g)
    | policyTargetFails g => exact .policyTargetFails fun b hb => g b ((h2 _).2 hb)
  | _, _, .policySet h1 h2 h3, d, h => by
    cases h with
    | policies g1 g2 g3 => exact .policies ((h2 _).1 g1) (h1 ▸ g2) (policiesMean_carry h3 _ g3)
    | setTargetFalse g => exact .setTargetFalse ((h2 _).1 g)
    | setTargetFails g => exact .setTargetFails fun b hb => g b ((h2 _).2 hb)
theorem policiesMean_carry : {ps ps' : List PolicyNode} → SamePolicies env r r' ps ps' → ∀ ds, PoliciesMean env r ps ds →
    PoliciesMean env r' ps' ds
  | _, _, .nil, ds, h => by cases h; exact .nil
  | _, _, .cons h1 h2, ds, h => by
    cases h with
    | cons g1 g2 => exact .cons (policyMeans_carry h1 _ g1) (policiesMean_carry h2 _ g2)
end

/-- Policies that mean the same get the same response, after any histories. -/
theorem pdp_of_means {p p' : PolicyNode} (hs : StatelessPip (some r)) (hs' : StatelessPip (some r')) (hc : Complete p)
    (hc' : Complete p') (h : ∀ d, PolicyMeans env r p d ↔ PolicyMeans env r' p' d) {w w' : World}
    (hw : History env.re w) (hw' : History env.re w') :
    (pdpEvaluate env (some p) (some r) w).1 = (pdpEvaluate env (some p') (some r') w').1 := by
  obtain ⟨d, w1, hd⟩ := policy_evaluate_ok env p (some r) w
  obtain ⟨d', w1', hd'⟩ := policy_evaluate_ok env p' (some r') w'
  have hden := (policy_stable env hs p).den (history_coh hw)
  have hden' := (policy_stable env hs' p').den (history_coh hw')
  rw [hd] at hden
  rw [hd'] at hden'
  have h1 := (h d).1 ((policy_den env r hs p hc d).1 hden.symm)
  have h2 := (policy_den env r' hs' p' hc' d).2 h1
  rw [← hden'] at h2
  injection h2 with h2
  subst h2
  simp [pdpEvaluate, PolicyNode.evaluateResponse, hd, hd']

end Xacml
