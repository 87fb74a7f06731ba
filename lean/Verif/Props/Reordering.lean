import Verif.Lemmas.Transport
import Verif.Spec.Reordering
import Verif.Spec.Samples

/-!
# C92: the order of a request does not matter. C93: the order within targets does not matter
-/
namespace Xacml
open Spec

/-! ## Values and functions up to order -/

theorem sameButOrder_false {x x' : PyVal} (h : SameButOrder x x') : RegardedFalse x ↔ RegardedFalse x' := by
  cases h with
  | same => exact Iff.rfl
  | bag h =>
    constructor
    · intro hf; cases hf with | emptyBag => rw [h.nil_eq.symm]; exact .emptyBag
    · intro hf; cases hf with | emptyBag => rw [h.eq_nil]; exact .emptyBag

theorem SameButOrder.symm {x x' : PyVal} (h : SameButOrder x x') : SameButOrder x' x := by
  cases h with
  | same => exact .same _
  | bag h => exact .bag h.symm

private theorem order_av {v : AttrVal} {x : PyVal} (h : SameButOrder (.av v) x) : x = .av v := by cases h; rfl

private theorem order_native {n : Native} {x : PyVal} (h : SameButOrder (.native n) x) : x = .native n := by cases h; rfl

private theorem order_bag {t : Option AVClass} {vs : List AttrVal} {x : PyVal} (h : SameButOrder (.bag ⟨t, vs⟩) x) :
    ∃ ws, x = .bag ⟨t, ws⟩ ∧ vs.Perm ws := by
  cases h with
  | same => exact ⟨vs, rfl, .refl _⟩
  | bag h => exact ⟨_, rfl, h⟩

private theorem order_avs {vs : List AttrVal} {xs : List PyVal} (h : Each SameButOrder (vs.map .av) xs) :
    xs = vs.map .av := by
  induction vs generalizing xs with
  | nil => exact h
  | cons v vs ih => obtain ⟨x, xs', rfl, h1, h2⟩ := h; rw [order_av h1, ih h2]; rfl

private theorem order_natives {α} {f : α → Native} {vs : List α} {xs : List PyVal}
    (h : Each SameButOrder (vs.map (.native ∘ f)) xs) : xs = vs.map (.native ∘ f) := by
  induction vs generalizing xs with
  | nil => exact h
  | cons v vs ih => obtain ⟨x, xs', rfl, h1, h2⟩ := h; rw [order_native h1, ih h2]; rfl

/-- No function of the package distinguishes bags by their order. -/
theorem respects_order {re : String → Except Exc (String → Bool)} {f : Func} (hf : ∀ g, f = .custom g → OrderBlind g) :
    FuncRespects re SameButOrder f := by
  intro xs xs' hxs x h
  cases h with
  | equal h1 h2 h3 =>
    obtain ⟨_, _, rfl, g1, _, _, rfl, g2, rfl⟩ := hxs
    rw [order_av g1, order_av g2]
    exact ⟨_, .equal h1 h2 h3, .same _⟩
  | matchFn h1 h2 h3 =>
    obtain ⟨_, _, rfl, g1, _, _, rfl, g2, rfl⟩ := hxs
    rw [order_av g1, order_av g2]
    exact ⟨_, .matchFn h1 h2 h3, .same _⟩
  | bag h1 =>
    rw [order_avs hxs]
    exact ⟨_, .bag h1, .same _⟩
  | oneAndOnly h1 =>
    obtain ⟨_, _, rfl, g1, rfl⟩ := hxs
    obtain ⟨ws, rfl, hp⟩ := order_bag g1
    rw [List.perm_singleton.1 hp.symm]
    exact ⟨_, .oneAndOnly h1, .same _⟩
  | atLeastOneMemberOf h1 h2 h3 =>
    obtain ⟨_, _, rfl, g1, _, _, rfl, g2, rfl⟩ := hxs
    obtain ⟨ws, rfl, hp⟩ := order_bag g1
    obtain ⟨ws', rfl, hp'⟩ := order_bag g2
    refine ⟨_, .atLeastOneMemberOf h1 h2 ?_, .same _⟩
    rw [h3]
    constructor
    · rintro ⟨v, hv, w, hw, h⟩; exact ⟨v, hp.mem_iff.1 hv, w, hp'.mem_iff.1 hw, h⟩
    · rintro ⟨v, hv, w, hw, h⟩; exact ⟨v, hp.mem_iff.2 hv, w, hp'.mem_iff.2 hw, h⟩
  | and h1 =>
    rw [order_natives hxs]
    exact ⟨_, .and h1, .same _⟩
  | not h1 =>
    obtain ⟨_, _, rfl, g1, rfl⟩ := hxs
    rw [order_native g1]
    exact ⟨_, .not h1, .same _⟩
  | roundInt =>
    obtain ⟨_, _, rfl, g1, rfl⟩ := hxs
    rw [order_native g1]
    exact ⟨_, .roundInt, .same _⟩
  | roundBool =>
    obtain ⟨_, _, rfl, g1, rfl⟩ := hxs
    rw [order_native g1]
    exact ⟨_, .roundBool, .same _⟩
  | roundFloat h1 =>
    obtain ⟨_, _, rfl, g1, rfl⟩ := hxs
    rw [order_native g1]
    exact ⟨_, .roundFloat h1, .same _⟩
  | regexpMatch h1 h2 h3 h4 h5 =>
    obtain ⟨_, _, rfl, g1, _, _, rfl, g2, rfl⟩ := hxs
    rw [order_av g1, order_av g2]
    exact ⟨_, .regexpMatch h1 h2 h3 h4 h5, .same _⟩
  | concatenate h1 h2 h3 h4 h5 h6 =>
    obtain ⟨_, _, rfl, g1, g2⟩ := hxs
    rw [order_av g1, order_avs g2]
    exact ⟨_, .concatenate h1 h2 h3 h4 h5 h6, .same _⟩
  | custom h1 =>
    obtain ⟨x', h2, h3⟩ := hf _ rfl _ _ hxs _ h1
    exact ⟨x', .custom h2, h3⟩

/-! ## Readings up to order -/

private theorem perm_somes {α} {ns : List α} {os : List (Option α)} (h : (ns.map some).Perm os) :
    ∃ ns', os = ns'.map some ∧ ns.Perm ns' := by
  have hall : ∀ o ∈ os, ∃ n, o = some n := by
    intro o ho
    obtain ⟨n, _, rfl⟩ := List.mem_map.1 (h.mem_iff.2 ho)
    exact ⟨n, rfl⟩
  have : ∀ l : List (Option α), (∀ o ∈ l, ∃ n, o = some n) → ∃ ns' : List α, l = ns'.map some := by
    intro l
    induction l with
    | nil => intro _; exact ⟨[], rfl⟩
    | cons o l ih =>
      intro hl
      obtain ⟨n, rfl⟩ := hl _ (List.mem_cons_self ..)
      obtain ⟨ns', rfl⟩ := ih fun o ho => hl o (List.mem_cons_of_mem _ ho)
      exact ⟨n :: ns', rfl⟩
  obtain ⟨ns', rfl⟩ := this os hall
  refine ⟨ns', rfl, ?_⟩
  have := h.filterMap id
  simpa [List.filterMap_map] using this

private theorem selector_alike {env : Env} {r r' : Request} {s : Selector} (h : SelectsAlike r r' s) {vs : List AttrVal}
    (hm : SelectorMeans env r s vs) : ∃ vs', SelectorMeans env r' s vs' ∧ vs.Perm vs' := by
  obtain ⟨xp, dt, c, ns, h1, h2, h3, h4, h5, h6, rfl⟩ := hm
  unfold SelectsAlike at h
  rw [h1] at h
  cases hx : r'.attributeSelector with
  | none => rw [hx] at h; exact h.elim
  | some xp' =>
    rw [hx] at h
    simp only [h4] at h
    cases ho : xp' s.path with
    | error e => rw [ho] at h; exact h.elim
    | ok os =>
      rw [ho] at h
      obtain ⟨ns', rfl, hp⟩ := perm_somes h
      refine ⟨_, ⟨xp', dt, c, ns', hx, h2, h3, ho, fun n hn => h5 n (hp.mem_iff.2 hn), ?_, rfl⟩, hp.map _⟩
      intro hb hn
      subst hn
      exact h6 hb hp.eq_nil

theorem SelectsAlike.symm {r r' : Request} {s : Selector} (h : SelectsAlike r r' s) : SelectsAlike r' r s := by
  unfold SelectsAlike at *
  cases hx : r.attributeSelector <;> cases hx' : r'.attributeSelector <;> rw [hx, hx'] at h <;> try exact h
  rename_i x x'
  simp only at h ⊢
  cases ha : x s.path <;> cases hb : x' s.path <;> rw [ha, hb] at h <;> simp only at h ⊢
  exact h.symm

theorem LooksAlike.symm {r r' : Request} : {l : Reading} → LooksAlike r r' l → LooksAlike r' r l
  | .selector s, h => SelectsAlike.symm h
  | .designator cat d, h => by
    refine ⟨fun hc => (h.1 hc).symm, ?_⟩
    have h := h.2
    cases ha : attributesOf cat r.data <;> cases ha' : attributesOf cat r'.data <;> rw [ha, ha'] at h <;> try exact h
    exact List.Perm.symm h

theorem looksAlike_carries {env : Env} {r r' : Request} {l : Reading} (h : LooksAlike r r' l) :
    Carries env r r' SameButOrder l l := by
  intro t vs hm
  cases l with
  | selector s =>
    obtain ⟨ht, hm⟩ := hm
    obtain ⟨vs', hm', hp⟩ := selector_alike h hm
    exact ⟨vs', ⟨ht, hm'⟩, hp, .bag hp⟩
  | designator cat d =>
    obtain ⟨ht, hm⟩ := hm
    obtain ⟨hh, ha⟩ := h
    cases hm with
    | pip h1 _ _ => rw [(hh rfl).1] at h1; cases h1
    | request g1 g2 g3 g4 =>
      rw [g2] at ha
      cases hx : attributesOf cat r'.data with
      | none => rw [hx] at ha; exact ha.elim
      | some as' =>
        rw [hx] at ha
        replace ha : (designated d _).Perm (designated d as') := ha
        refine ⟨_, ⟨ht, .request (fun hc => (hh hc).2) hx (fun v hv => g3 v (ha.mem_iff.2 hv)) ?_⟩, ha, .bag ha⟩
        intro hb hn
        rw [hn] at ha
        exact g4 hb ha.eq_nil

/-! ## A policy and itself -/

mutual
private theorem expr_self {L : Reading → Prop} {F : Func → Prop} : (e : Expr) → (∀ l, InExpr l e → L l) →
    (∀ f, Applied f e → F f) → ExprRel (fun a b => L a ∧ a = b) F e e
  | .value v, _, _ => .value v
  | .designator c d, h, _ => .designator ⟨h _ (.designator rfl), rfl⟩
  | .selector s, h, _ => .selector ⟨h _ (.selector rfl), rfl⟩
  | .apply f args, h, hf => .apply (fun g hg => by subst hg; exact hf _ .here)
      (exprs_self args (fun e he l hl => h l (.apply he hl)) fun e he f hl => hf f (.inside he hl))
private theorem exprs_self {L : Reading → Prop} {F : Func → Prop} : (es : List Expr) →
    (∀ e ∈ es, ∀ l, InExpr l e → L l) → (∀ e ∈ es, ∀ f, Applied f e → F f) → ExprsRel (fun a b => L a ∧ a = b) F es es
  | [], _, _ => .nil
  | e :: es, h, hf => .cons (expr_self e (h e (by simp)) (hf e (by simp)))
      (exprs_self es (fun e he => h e (by simp [he])) fun e he => hf e (by simp [he]))
end

private theorem match_self {L : Reading → Prop} (m : Match) (h : ∀ l, InMatch l m → L l) :
    MatchRel (fun a b => L a ∧ a = b) m m := by
  refine ⟨rfl, rfl, ?_⟩
  cases hd : m.designator with
  | some p => exact .inl ⟨p.1, p.2, p.1, p.2, rfl, rfl, h _ (.inl ⟨p.1, p.2, hd, rfl⟩), rfl⟩
  | none =>
    refine .inr ⟨rfl, rfl, ?_⟩
    cases hs : m.selector with
    | none => exact .inl ⟨rfl, rfl⟩
    | some s => exact .inr ⟨s, s, rfl, rfl, h _ (.inr ⟨s, hs, rfl⟩), rfl⟩

private theorem target_self {L : Reading → Prop} (t : Option Target) (h : ∀ l, InTarget l t → L l) :
    TargetRel (MatchRel fun a b => L a ∧ a = b) t t := by
  cases t with
  | none => exact .inl ⟨rfl, rfl⟩
  | some t =>
    have sec : ∀ cs, (∀ c ∈ cs, c ∈ t.subjects ++ t.resources ++ t.actions ++ t.environments) →
        SectionRel (MatchRel fun a b => L a ∧ a = b) cs cs := fun cs hcs =>
      each_self fun c hc => each_self fun m hm => match_self m fun l hl => h l ⟨t, rfl, c, hcs c hc, m, hm, hl⟩
    exact .inr ⟨t, t, rfl, rfl, sec _ (by simp +contextual), sec _ (by simp +contextual), sec _ (by simp +contextual),
      sec _ (by simp +contextual)⟩

private theorem cond_self {L : Reading → Prop} {F : Func → Prop} (c : Option Condition)
    (h : ∀ a e l, c = some a → a.expression = some e → InExpr l e → L l)
    (hf : ∀ a e f, c = some a → a.expression = some e → Applied f e → F f) :
    CondRel (fun a b => L a ∧ a = b) F c c := by
  cases c with
  | none => exact .inl ⟨rfl, rfl⟩
  | some a =>
    refine .inr ⟨a, a, rfl, rfl, ?_⟩
    cases he : a.expression with
    | none => exact .inl ⟨rfl, rfl⟩
    | some e => exact .inr ⟨e, e, rfl, rfl, expr_self e (fun l => h a e l rfl he) fun f => hf a e f rfl he⟩

section
variable {env : Env} {r r' : Request} {Q : PyVal → PyVal → Prop} (hq : ∀ x, Q x x)
  (hfalse : ∀ x x', Q x x' → (RegardedFalse x ↔ RegardedFalse x'))
  {L : Reading → Prop} {F : Func → Prop} (hL : ∀ l, L l → Carries env r r' Q l l) (hL' : ∀ l, L l → Carries env r' r Q l l)
  (hF : ∀ f, F f → FuncRespects env.re Q f)
include hq hfalse hL hL' hF

private theorem applies_self (t : Option Target) (h : ∀ l, InTarget l t → L l) (b : Bool) :
    Applies env r t b ↔ Applies env r' t b := by
  have hm := target_self t h
  constructor
  · exact applies_carry (fun m m' hmm b hb =>
      matchMeans_carry (Q := Q) (L := fun a b => L a ∧ a = b) (fun l l' hl => by obtain ⟨h1, rfl⟩ := hl; exact hL l h1) hmm hb) hm
  · refine applies_carry (M := fun m m' => MatchRel (fun a b => L a ∧ a = b) m' m) (fun m m' hmm b hb =>
      matchMeans_carry (Q := Q) (L := fun a b => L b ∧ b = a) (fun l l' hl => by obtain ⟨h1, rfl⟩ := hl; exact hL' _ h1) hmm.flip hb)
      (hm.flip fun _ _ h => h)

private theorem holds_self (c : Option Condition)
    (h : ∀ a e l, c = some a → a.expression = some e → InExpr l e → L l)
    (hf : ∀ a e f, c = some a → a.expression = some e → Applied f e → F f) (b : Bool) :
    Holds env r c b ↔ Holds env r' c b := by
  have hm := cond_self c h hf
  constructor
  · exact holds_carry hq hfalse (fun l l' hl => by obtain ⟨h1, rfl⟩ := hl; exact hL l h1) hF hm
  · exact holds_carry (L := fun a b => L b ∧ b = a) hq hfalse (fun l l' hl => by obtain ⟨h1, rfl⟩ := hl; exact hL' _ h1) hF hm.flip

private theorem rule_self (rule : Rule) (h : ∀ l, InRule l rule → L l)
    (hf : ∀ a e f, rule.condition = some a → a.expression = some e → Applied f e → F f) (d : Decision) :
    RuleMeans env r rule d ↔ RuleMeans env r' rule d := by
  have ht := applies_self hq hfalse hL hL' hF rule.target fun l hl => h l (.inl hl)
  have hc := holds_self hq hfalse hL hL' hF rule.condition (fun a e l h1 h2 h3 => h l (.inr ⟨a, e, h1, h2, h3⟩)) hf
  exact ⟨ruleMeans_carry rfl ht hc, ruleMeans_carry rfl (fun b => (ht b).symm) fun b => (hc b).symm⟩

mutual
private theorem policy_self : (p : PolicyNode) → (∀ l, InPolicy l p → L l) → (∀ f, AppliedIn f p → F f) →
    SamePolicy env r r' p p
  | .policy hdr rules, h, hf => .policy rfl (applies_self hq hfalse hL hL' hF _ fun l hl => h l (.policyTarget hl))
      (each_self fun rule hr => ⟨rfl, rule_self hq hfalse hL hL' hF rule (fun l hl => h l (.rule hr hl))
        fun a e f h1 h2 h3 => hf f (.rule hr h1 h2 h3)⟩)
  | .policySet hdr ps, h, hf => .policySet rfl (applies_self hq hfalse hL hL' hF _ fun l hl => h l (.setTarget hl))
      (policies_self ps (fun p hp l hl => h l (.child hp hl)) fun p hp f hl => hf f (.child hp hl))
private theorem policies_self : (ps : List PolicyNode) → (∀ p ∈ ps, ∀ l, InPolicy l p → L l) →
    (∀ p ∈ ps, ∀ f, AppliedIn f p → F f) → SamePolicies env r r' ps ps
  | [], _, _ => .nil
  | p :: ps, h, hf => .cons (policy_self p (h p (by simp)) (hf p (by simp)))
      (policies_self ps (fun p hp => h p (by simp [hp])) fun p hp => hf p (by simp [hp]))
end
end

/-- C92: two requests that look the same, up to order, through every designator and selector of the policy
get the same response, after any histories. Custom functions in conditions must not distinguish bags by
order; the package's functions do not. -/
theorem C92_alike (env : Env) (p : PolicyNode) (hc : Complete p) (r r' : Request) (hs : StatelessPip (some r))
    (hs' : StatelessPip (some r')) (hl : ∀ l, InPolicy l p → LooksAlike r r' l)
    (hf : ∀ g, AppliedIn (.custom g) p → OrderBlind g) {w w' : World} (hw : History env.re w) (hw' : History env.re w') :
    (pdpEvaluate env (some p) (some r) w).1 = (pdpEvaluate env (some p) (some r') w').1 := by
  have h := policy_self (env := env) (r := r) (r' := r') (Q := SameButOrder) (L := LooksAlike r r')
    (F := fun f => ∀ g, f = .custom g → OrderBlind g) .same (fun _ _ h => sameButOrder_false h)
    (fun l hl => looksAlike_carries hl) (fun l hl => looksAlike_carries (LooksAlike.symm hl)) (fun f hf => respects_order hf) p hl
    (fun f h g hg => hf g (hg ▸ h))
  exact pdp_of_means hs hs' hc hc (fun d => ⟨policyMeans_carry h d, policyMeans_carry h.flip d⟩) hw hw'

/-! ## Reordered requests look alike -/

private theorem perm_flatMap_each {α β} {R : α → α → Prop} {f : α → List β} (hf : ∀ a a', R a a' → (f a).Perm (f a'))
    {l l' : List α} (h : Rearranged R l l') : (l.flatMap f).Perm (l'.flatMap f) := by
  obtain ⟨m, hp, he⟩ := h
  refine (hp.flatMap_right f).trans ?_
  induction m generalizing l l' with
  | nil => rw [each_nil] at he; subst he; exact .refl _
  | cons a m ih =>
    obtain ⟨b, bs, rfl, h1, h2⟩ := he
    simp only [List.flatMap_cons]
    exact (hf _ _ h1).append (ih (.refl _) h2)

theorem designated_eq (d : Designator) (as : List Attribute) :
    designated d as = as.flatMap fun a => if AttrSelected d a then a.values.filter (fun v => decide (some v.dataType = d.dataType)) else [] := by
  unfold designated
  induction as with
  | nil => rfl
  | cons a as ih =>
    simp only [List.flatMap_cons]
    rw [← ih, List.filter_cons]
    by_cases h : AttrSelected d a <;> simp [h]

theorem designated_reordered (d : Designator) {as as' : List Attribute} (h : AttributesReordered as as') :
    (designated d as).Perm (designated d as') := by
  rw [designated_eq, designated_eq]
  refine perm_flatMap_each (fun a a' ha => ?_) h
  have : AttrSelected d a ↔ AttrSelected d a' := by unfold AttrSelected; rw [ha.attributeId, ha.dataType, ha.issuer]
  by_cases hs : AttrSelected d a
  · rw [if_pos hs, if_pos (this.1 hs)]
    exact ha.values.filter _
  · rw [if_neg hs, if_neg fun h => hs (this.2 h)]

theorem designated_flatMap {α} (d : Designator) (f : α → List Attribute) (l : List α) :
    designated d (l.flatMap f) = l.flatMap fun x => designated d (f x) := by
  induction l with
  | nil => rfl
  | cons x l ih => simp only [List.flatMap_cons, ← ih]; unfold designated; simp

theorem reordered_looksAlike {r r' : Request} (h : RequestReordered r.data r'.data) (cat : Category)
    (hn : cat = .subject → r.ctxHandler = none ∧ r'.ctxHandler = none) (d : Designator) :
    LooksAlike r r' (.designator cat d) := by
  refine ⟨hn, ?_⟩
  have part : ∀ a b, PartReordered a b → (match a, b with
      | none, none => True
      | some as, some as' => (designated d as).Perm (designated d as')
      | _, _ => False) := by
    intro a b hab
    cases a <;> cases b <;> simp only [PartReordered] at hab ⊢
    exact designated_reordered d hab
  cases cat with
  | subject =>
    simp only [attributesOf, designated_flatMap]
    exact perm_flatMap_each (fun _ _ h => designated_reordered d h.2) h.subjects
  | resource =>
    simp only [attributesOf, designated_flatMap]
    exact perm_flatMap_each (fun _ _ h => designated_reordered d h.2) h.resources
  | action => exact part _ _ h.action
  | environment => exact part _ _ h.environment

/-- C92: the order in which a request lists its subjects, resources, attributes and attribute values does not
matter to a request without context handler. Missing: requests with a context handler, see
`C92_handler_partial` and `C92_violated_subjects`. -/
theorem C92_order_partial (env : Env) (p : PolicyNode) (hc : Complete p) (r r' : Request) (hr : RequestReordered r.data r'.data)
    (h1 : r.ctxHandler = none) (h2 : r'.ctxHandler = none) (hx : ∀ s, InPolicy (.selector s) p → SelectsAlike r r' s)
    (hf : ∀ g, AppliedIn (.custom g) p → OrderBlind g) {w w' : World} (hw : History env.re w) (hw' : History env.re w') :
    (pdpEvaluate env (some p) (some r) w).1 = (pdpEvaluate env (some p) (some r') w').1 := by
  have st : ∀ r : Request, r.ctxHandler = none → StatelessPip (some r) := by
    intro r h r0 h0 pip hp
    injection h0 with h0
    subst h0
    rw [h] at hp
    cases hp
  refine C92_alike env p hc r r' (st r h1) (st r' h2) (fun l hl => ?_) hf hw hw'
  cases l with
  | designator cat d => exact reordered_looksAlike hr cat (fun _ => ⟨h1, h2⟩) d
  | selector s => exact hx s hl

/-! ## With a context handler -/

private theorem knownIn_perm {known known' : List AttrVal} (hp : known.Perm known') (v : AttrVal) :
    KnownIn known v ↔ KnownIn known' v :=
  ⟨fun ⟨y, hy, h⟩ => ⟨y, hp.mem_iff.1 hy, h⟩, fun ⟨y, hy, h⟩ => ⟨y, hp.mem_iff.2 hy, h⟩⟩

private theorem pipGives_perm {env : Env} {dt : Option String} {known known' : List AttrVal} (hp : known.Perm known')
    {ans : PipAnswer} (hcmp : ∀ it, ans = .iter it → ∀ v, .av v ∈ it.items → ∀ y ∈ known, ∃ b, y.pyEq v = .ok b)
    {new : List AttrVal} (h : PipGives env dt known ans new) : PipGives env dt known' ans new := by
  cases h with
  | nothing => exact .nothing
  | first h1 h2 h3 =>
    subst h1
    exact .first hp.nil_eq.symm h2 h3
  | @more it vs h1 h2 h3 h4 =>
    have hf : (vs.filter fun v => ¬ KnownIn known v) = vs.filter fun v => ¬ KnownIn known' v :=
      List.filter_congr fun v _ => by simp only [knownIn_perm hp v]
    rw [hf]
    refine .more (fun hn => h1 (hn ▸ hp).eq_nil) h2 (fun v hv => ?_) fun v hv hk => h4 v hv fun h => hk ((knownIn_perm hp v).1 h)
    intro pre y post hk
    exact .inr (hcmp it rfl v (by rw [h2]; exact List.mem_map_of_mem hv) y (hp.mem_iff.2 (by rw [hk]; simp)))

private theorem pipGives_items {env : Env} {dt : Option String} {known : List AttrVal} {ans : PipAnswer} {new : List AttrVal}
    (h : PipGives env dt known ans new) {v : AttrVal} (hv : v ∈ new) : ∃ it, ans = .iter it ∧ .av v ∈ it.items := by
  cases h with
  | nothing => cases hv
  | @first it vs h1 h2 h3 =>
    refine ⟨it, rfl, ?_⟩
    rw [h2]
    split at hv
    · cases hv
    · exact List.mem_map_of_mem hv
  | @more it vs h1 h2 h3 h4 =>
    refine ⟨it, rfl, ?_⟩
    rw [h2]
    exact List.mem_map_of_mem (List.mem_filter.1 hv).1

private theorem pipValues_perm {env : Env} {r r' : Request} {pip pip' : Pip} {d : Designator}
    (hask : pip' [] ⟨r'.data, d⟩ = pip [] ⟨r.data, d⟩) {P : AttrVal → Prop}
    (hcmp : ∀ it, pip [] ⟨r.data, d⟩ = .ok (.iter it) → ∀ v, .av v ∈ it.items → ∀ y, P y → ∃ b, y.pyEq v = .ok b)
    {ss ss' : List CtxSubject}
    (he : Each (fun s s' : CtxSubject => (designated d s.attributes).Perm (designated d s'.attributes)) ss ss')
    (hP : ∀ s ∈ ss, ∀ y ∈ designated d s.attributes, P y)
    (hit : ∀ it, pip [] ⟨r.data, d⟩ = .ok (.iter it) → 1 < ss.length → ∀ v, .av v ∈ it.items → P v)
    {known known' : List AttrVal} (hk : known.Perm known') (hkP : ss ≠ [] → ∀ y ∈ known, P y) {vs : List AttrVal}
    (h : PipValues env r pip d ss known vs) : ∃ vs', PipValues env r' pip' d ss' known' vs' ∧ vs.Perm vs' := by
  induction ss generalizing ss' known known' with
  | nil =>
    rw [each_nil] at he
    subst he
    cases h
    exact ⟨known', .nil, hk⟩
  | cons s ss ih =>
    obtain ⟨s', ss', rfl, hp, he⟩ := he
    cases h with
    | @cons _ _ _ ans new _ k1 k2 k3 k4 =>
      have hkn := hk.append hp
      have hall : ∀ y ∈ known ++ designated d s.attributes, P y := by
        intro y hy
        rcases List.mem_append.1 hy with hy | hy
        · exact hkP (by simp) y hy
        · exact hP s (by simp) y hy
      obtain ⟨vs', hv, hvp⟩ := ih he (fun x hx => hP x (by simp [hx])) (fun it h hl => hit it h (by simp; omega))
        (hkn.append_right new) (fun hn y hy => by
          rcases List.mem_append.1 hy with hy | hy
          · exact hall y hy
          · obtain ⟨it, rfl, hm⟩ := pipGives_items k3 hy
            exact hit it k2 (by have := List.length_pos_iff.2 hn; simp; omega) y hm) k4
      refine ⟨vs', .cons (fun v hv => k1 v (hp.mem_iff.2 hv)) (hask.trans k2)
        (pipGives_perm hkn (fun it hi => ?_) k3) hv, hvp⟩
      subst hi
      exact fun v hv y hy => hcmp it k2 v hv y (hall y hy)

private theorem handler_carries {env : Env} {r r' : Request} {pip pip' : Pip} {d : Designator}
    (h1 : r.ctxHandler = some pip) (h2 : r'.ctxHandler = some pip')
    (hask : pip' [] ⟨r'.data, d⟩ = pip [] ⟨r.data, d⟩) {P : AttrVal → Prop}
    (hcmp : ∀ it, pip [] ⟨r.data, d⟩ = .ok (.iter it) → ∀ v, .av v ∈ it.items → ∀ y, P y → ∃ b, y.pyEq v = .ok b)
    (he : Each (fun s s' : CtxSubject => (designated d s.attributes).Perm (designated d s'.attributes)) r.data.subjects r'.data.subjects)
    (hP : ∀ s ∈ r.data.subjects, ∀ y ∈ designated d s.attributes, P y)
    (hit : ∀ it, pip [] ⟨r.data, d⟩ = .ok (.iter it) → 1 < r.data.subjects.length → ∀ v, .av v ∈ it.items → P v) :
    Carries env r r' SameButOrder (.designator .subject d) (.designator .subject d) := by
  rintro t vs ⟨ht, hm⟩
  cases hm with
  | request g1 _ _ _ => rw [h1] at g1; cases g1 rfl
  | pip g1 g2 g3 =>
    rw [h1] at g1
    injection g1 with g1
    subst g1
    obtain ⟨vs', hv, hb⟩ := pipValues_perm (env := env) hask hcmp he hP hit (.refl []) (by simp) g2
    refine ⟨_, ⟨ht, .pip h2 hv ?_⟩, hb, .bag hb⟩
    intro hbp hn
    refine g3 hbp ?_
    rw [hn] at hb
    exact hb.eq_nil

private theorem each_right {α β} {R : α → β → Prop} {as : List α} {bs : List β} (h : Each R as bs) {b : β} (hb : b ∈ bs) :
    ∃ a ∈ as, R a b := by
  induction as generalizing bs with
  | nil => rw [each_nil] at h; subst h; cases hb
  | cons a as ih =>
    obtain ⟨c, bs, rfl, hc, h⟩ := h
    rcases List.mem_cons.1 hb with rfl | hb
    · exact ⟨a, by simp, hc⟩
    · obtain ⟨x, hx, h⟩ := ih h hb
      exact ⟨x, by simp [hx], h⟩

/-- Two requests that look the same up to order, subject by subject, whose context handlers answer alike, with values
that can be compared with those in the request (and with each other, if they are asked about several subjects), get the
same response. -/
theorem alike_handler (env : Env) (p : PolicyNode) (hc : Complete p) (r r' : Request)
    (he : ∀ d, Each (fun s s' : CtxSubject => (designated d s.attributes).Perm (designated d s'.attributes))
      r.data.subjects r'.data.subjects) (pip pip' : Pip) (h1 : r.ctxHandler = some pip)
    (h2 : r'.ctxHandler = some pip') (hs : StatelessPip (some r)) (hs' : StatelessPip (some r'))
    (hask : ∀ d, pip' [] ⟨r'.data, d⟩ = pip [] ⟨r.data, d⟩)
    (hcmp : ∀ d it, pip [] ⟨r.data, d⟩ = .ok (.iter it) → ∀ v, .av v ∈ it.items → ∀ y,
      (∃ s ∈ r.data.subjects, y ∈ designated d s.attributes) ∨ 1 < r.data.subjects.length ∧ .av y ∈ it.items →
      ∃ b, y.pyEq v = .ok b)
    (ho : ∀ cat d, cat ≠ .subject → LooksAlike r r' (.designator cat d))
    (hx : ∀ s, InPolicy (.selector s) p → SelectsAlike r r' s)
    (hf : ∀ g, AppliedIn (.custom g) p → OrderBlind g) {w w' : World} (hw : History env.re w) (hw' : History env.re w') :
    (pdpEvaluate env (some p) (some r) w).1 = (pdpEvaluate env (some p) (some r') w').1 := by
  have h := policy_self (env := env) (r := r) (r' := r') (Q := SameButOrder)
    (L := fun l => Carries env r r' SameButOrder l l ∧ Carries env r' r SameButOrder l l)
    (F := fun f => ∀ g, f = .custom g → OrderBlind g) .same (fun _ _ h => sameButOrder_false h)
    (fun l hl => hl.1) (fun l hl => hl.2) (fun f hf => respects_order hf) p ?_
    (fun f h g hg => hf g (hg ▸ h))
  · exact pdp_of_means hs hs' hc hc (fun d => ⟨policyMeans_carry h d, policyMeans_carry h.flip d⟩) hw hw'
  intro l hl
  cases l with
  | selector s => exact ⟨looksAlike_carries (hx s hl), looksAlike_carries (SelectsAlike.symm (hx s hl))⟩
  | designator cat d =>
    by_cases hcat : cat = .subject
    · subst hcat
      let P : AttrVal → Prop := fun y => (∃ s ∈ r.data.subjects, y ∈ designated d s.attributes) ∨
        1 < r.data.subjects.length ∧ ∃ it, pip [] ⟨r.data, d⟩ = .ok (.iter it) ∧ .av y ∈ it.items
      have hcmp' : ∀ it, pip [] ⟨r.data, d⟩ = .ok (.iter it) → ∀ v, .av v ∈ it.items → ∀ y, P y → ∃ b, y.pyEq v = .ok b := by
        intro it hi v hv y hy
        refine hcmp d it hi v hv y ?_
        rcases hy with hy | ⟨hl, it', hi', hy⟩
        · exact .inl hy
        · rw [hi] at hi'
          injection hi' with hi'
          injection hi' with hi'
          subst hi'
          exact .inr ⟨hl, hy⟩
      refine ⟨handler_carries (P := P) h1 h2 (hask d) hcmp' (he d) (fun s hs y hy => .inl ⟨s, hs, hy⟩)
        (fun it hi hl v hv => .inr ⟨hl, it, hi, hv⟩),
        handler_carries (P := P) h2 h1 (hask d).symm ?_ (each_imp (fun _ _ h => List.Perm.symm h) (each_flip (he d))) ?_ ?_⟩
      · rw [hask d]; exact hcmp'
      · intro s' hs' y hy
        obtain ⟨s, hs, hp⟩ := each_right (he d) hs'
        exact .inl ⟨s, hs, hp.mem_iff.2 hy⟩
      · intro it hi hl v hv
        rw [hask d] at hi
        exact .inr ⟨each_length (he d) ▸ hl, it, hi, hv⟩
    · have h := ho cat d hcat
      exact ⟨looksAlike_carries h, looksAlike_carries (LooksAlike.symm h)⟩

/-- C92, with a context handler: if the subjects stay in their order, the order does not matter either, provided that
the context handler answers alike for the reordered request, with values that can be compared with those in the request
(and with each other, if it is asked about several subjects). Missing: reordering the subjects, see
`C92_violated_subjects`. -/
theorem C92_handler_partial (env : Env) (p : PolicyNode) (hc : Complete p) (r r' : Request) (hr : RequestReordered r.data r'.data)
    (hsub : Each SubjectReordered r.data.subjects r'.data.subjects) (pip pip' : Pip) (h1 : r.ctxHandler = some pip)
    (h2 : r'.ctxHandler = some pip') (hs : StatelessPip (some r)) (hs' : StatelessPip (some r'))
    (hask : ∀ d, pip' [] ⟨r'.data, d⟩ = pip [] ⟨r.data, d⟩)
    (hcmp : ∀ d it, pip [] ⟨r.data, d⟩ = .ok (.iter it) → ∀ v, .av v ∈ it.items → ∀ y,
      (∃ s ∈ r.data.subjects, y ∈ designated d s.attributes) ∨ 1 < r.data.subjects.length ∧ .av y ∈ it.items →
      ∃ b, y.pyEq v = .ok b)
    (hx : ∀ s, InPolicy (.selector s) p → SelectsAlike r r' s)
    (hf : ∀ g, AppliedIn (.custom g) p → OrderBlind g) {w w' : World} (hw : History env.re w) (hw' : History env.re w') :
    (pdpEvaluate env (some p) (some r) w).1 = (pdpEvaluate env (some p) (some r') w').1 :=
  alike_handler env p hc r r' (fun d => each_imp (fun _ _ h => designated_reordered d h.2) hsub) pip pip' h1 h2 hs hs' hask hcmp
    (fun cat d hcat => reordered_looksAlike hr cat (fun h => (hcat h).elim) d) hx hf hw hw'

/-! ### Samples -/

namespace Samples

/-- A subject with a role. -/
def roleSubject (vs : List String) : CtxSubject := { category := none, attributes := [roleAttr vs] }

/-- A subject without attributes. -/
def noSubject : CtxSubject := { category := none, attributes := [] }

/-- A request of given subjects. -/
def subjectsData (ss : List CtxSubject) : ReqData :=
  { subjects := ss, resources := [], action := some [actAttr "read"], environment := none }

/-- Is "admin" the one and only role? -/
def onlyRole : Condition :=
  { expression := some (.apply (some (.equal stringClass))
      [.apply (some (.oneAndOnly stringClass)) [.designator .subject roleDes], .value (str "admin")]) }

/-- Permits those whose one and only role is "admin". -/
def onlyRolePolicy : PolicyNode :=
  .policy (hdr .denyOverrides) [{ effect := some .permit, target := none, condition := some onlyRole }]

/-- Permits if some role is "admin", by target and by condition. -/
def anyRolePolicy : PolicyNode :=
  .policy (hdr .denyOverrides)
    [{ effect := some .permit, target := some (roleTarget "admin"),
       condition := some { expression := some (.apply (some (.atLeastOneMemberOf stringClass))
         [.designator .subject roleDes, .apply (some (.bag stringClass)) [.value (str "staff"), .value (str "admin")]]) } }]

/-- A context handler that answers the role "admin". -/
def adminPip : Pip := fun _ q =>
  if q.designator.attributeId = some "role" then .ok (.iter { oneShot := false, items := [.av (str "admin")] }) else .ok .none

/-- Deciding what an evaluation gave. -/
def gives (x : Except Exc Response) (d : Decision) : Bool :=
  match x with
  | .ok r => decide (r = { results := [Result.createInitialised d] })
  | .error _ => false

theorem of_gives {x : Except Exc Response} {d : Decision} (h : gives x d = true) :
    x = .ok { results := [Result.createInitialised d] } := by
  cases x with
  | ok r => rw [of_decide_eq_true h]
  | error e => cases h

end Samples

section
open Samples

private theorem part_refl (as : Option (List Attribute)) : PartReordered as as := by
  cases as with
  | none => trivial
  | some as => exact ⟨as, .refl _, each_self fun a _ => ⟨rfl, rfl, rfl, .refl _⟩⟩

private theorem swapped (a b : List String) (a' : List String) (h : a.Perm a') :
    RequestReordered (subjectsData [roleSubject a, roleSubject b]) (subjectsData [roleSubject b, roleSubject a']) where
  subjects := ⟨[roleSubject b, roleSubject a], .swap _ _ _, roleSubject b, _, rfl,
    ⟨rfl, _, .refl _, each_self fun a _ => ⟨rfl, rfl, rfl, .refl _⟩⟩, roleSubject a', _, rfl,
    ⟨rfl, _, .refl _, roleAttr a', [], rfl, ⟨rfl, rfl, rfl, h.map _⟩, rfl⟩, rfl⟩
  resources := ⟨[], .refl _, rfl⟩
  action := part_refl _
  environment := part_refl _

/-- The hypotheses of `C92_order_partial` are met by a request with two subjects that are swapped, the values of
one of them too, and a policy with a target and a condition; it permits. -/
example : ∀ w, History env.re w →
    (pdpEvaluate env (some anyRolePolicy)
      (some ⟨subjectsData [roleSubject ["guest"], roleSubject ["staff", "admin"]], none, none⟩) w).1 =
      .ok { results := [Result.createInitialised .permit] } := by
  intro w hw
  have hc : Complete anyRolePolicy := by simp [anyRolePolicy, Complete, hdr]
  have := C92_order_partial env anyRolePolicy hc ⟨subjectsData [roleSubject ["staff", "admin"], roleSubject ["guest"]], none, none⟩
    ⟨subjectsData [roleSubject ["guest"], roleSubject ["staff", "admin"]], none, none⟩ (swapped _ _ _ (.refl _)) rfl rfl
    (fun s hs => by trivial) (fun g hg => by
      unfold anyRolePolicy at hg
      cases hg with
      | rule h1 h2 h3 h4 =>
        simp only [List.mem_singleton] at h1
        subst h1
        injection h2 with h2
        subst h2
        injection h3 with h3
        subst h3
        cases h4 with
        | inside h5 h6 =>
          simp only [List.mem_cons, List.not_mem_nil, or_false] at h5
          rcases h5 with rfl | rfl
          · cases h6
          · cases h6 with
            | inside h7 h8 =>
              simp only [List.mem_cons, List.not_mem_nil, or_false] at h7
              rcases h7 with rfl | rfl <;> cases h8) .start hw
  rw [← this]
  exact of_gives (by decide +kernel)

/-- A custom function that counts is not affected by order. -/
example : OrderBlind fun xs => match xs with
    | [.bag b] => .ok (.native (.int b.items.length))
    | _ => .error .typeError := by
  intro xs xs' h x hx
  match xs, h with
  | [.bag b], h =>
    obtain ⟨y, ys, rfl, h1, h2⟩ := h
    rw [each_nil] at h2
    subst h2
    obtain ⟨ws, rfl, hp⟩ := order_bag (t := b.elementType) (vs := b.items) h1
    refine ⟨x, ?_, .same _⟩
    rw [← hx]
    simp only [hp.length_eq]
  | [], _ => cases hx
  | [.av _], _ | [.native _], _ | [.none], _ | [.opaque_ _], _ => cases hx
  | _ :: _ :: _, _ => simp at hx

/-- C92 fails with a context handler and several subjects: the values the context handler supplies are weeded
out against those of the subjects before, not of those after. Here the second subject's role is "admin", which the
context handler answers too. In this order the bag holds it twice, and "one-and-only" fails; in the other order
once, and the response is Permit. -/
theorem C92_violated_subjects :
    RequestReordered (subjectsData [noSubject, roleSubject ["admin"]]) (subjectsData [roleSubject ["admin"], noSubject]) ∧
    (pdpEvaluate env (some onlyRolePolicy)
      (some ⟨subjectsData [noSubject, roleSubject ["admin"]], some adminPip, none⟩) start).1 =
      .ok { results := [Result.createInitialised .indeterminate] } ∧
    (pdpEvaluate env (some onlyRolePolicy)
      (some ⟨subjectsData [roleSubject ["admin"], noSubject], some adminPip, none⟩) start).1 =
      .ok { results := [Result.createInitialised .permit] } := by
  refine ⟨⟨?_, ⟨[], .refl _, rfl⟩, part_refl _, part_refl _⟩, of_gives (by decide +kernel), of_gives (by decide +kernel)⟩
  exact ⟨[roleSubject ["admin"], noSubject], .swap _ _ _, each_self fun s _ =>
    ⟨rfl, _, .refl _, each_self fun a _ => ⟨rfl, rfl, rfl, .refl _⟩⟩⟩

/-- The hypotheses of `C92_handler_partial` are met by two subjects, one with two roles, and a context handler. -/
example : ∀ w, History env.re w →
    (pdpEvaluate env (some anyRolePolicy)
      (some ⟨subjectsData [roleSubject ["staff", "guest"], roleSubject ["visitor"]], some adminPip, none⟩) w).1 =
    (pdpEvaluate env (some anyRolePolicy)
      (some ⟨subjectsData [roleSubject ["guest", "staff"], roleSubject ["visitor"]], some adminPip, none⟩) w).1 := by
  intro w hw
  have st : ∀ d, StatelessPip (some ⟨d, some adminPip, none⟩) := by
    intro d r hr pip hp log log' q
    injection hr with hr
    subst hr
    injection hp with hp
    subst hp
    rfl
  have hc : Complete anyRolePolicy := by simp [anyRolePolicy, Complete, hdr]
  have hsub : Each SubjectReordered [roleSubject ["staff", "guest"], roleSubject ["visitor"]]
      [roleSubject ["guest", "staff"], roleSubject ["visitor"]] :=
    ⟨roleSubject ["guest", "staff"], _, rfl, ⟨rfl, _, .refl _, roleAttr ["guest", "staff"], [], rfl, ⟨rfl, rfl, rfl, .swap _ _ _⟩, rfl⟩,
      roleSubject ["visitor"], _, rfl, ⟨rfl, _, .refl _, roleAttr ["visitor"], [], rfl, ⟨rfl, rfl, rfl, .refl _⟩, rfl⟩, rfl⟩
  refine C92_handler_partial env anyRolePolicy hc
    ⟨subjectsData [roleSubject ["staff", "guest"], roleSubject ["visitor"]], some adminPip, none⟩
    ⟨subjectsData [roleSubject ["guest", "staff"], roleSubject ["visitor"]], some adminPip, none⟩
    ⟨⟨_, .refl _, hsub⟩, ⟨[], .refl _, rfl⟩, part_refl _, part_refl _⟩ hsub adminPip adminPip rfl rfl (st _)
    (st _) (fun d => rfl) ?_ (fun s hs => by trivial) ?_ hw hw
  · intro d it hit v hv y hy
    unfold adminPip at hit
    split at hit
    · injection hit with hit
      injection hit with hit
      subst hit
      simp only [List.mem_singleton] at hv
      injection hv with hv
      subst hv
      rcases hy with ⟨s, hs, hy⟩ | ⟨_, hy⟩
      · unfold designated at hy
        rw [List.mem_flatMap] at hy
        obtain ⟨a, ha, hy⟩ := hy
        replace ha := (List.mem_filter.1 ha).1
        replace hy := (List.mem_filter.1 hy).1
        simp only [subjectsData, List.mem_cons, List.not_mem_nil, or_false] at hs
        rcases hs with rfl | rfl
        · simp only [roleSubject, List.mem_singleton] at ha
          subst ha
          simp only [roleAttr, List.map_cons, List.map_nil, List.mem_cons, List.not_mem_nil, or_false] at hy
          rcases hy with rfl | rfl <;> exact ⟨_, rfl⟩
        · simp only [roleSubject, List.mem_singleton] at ha
          subst ha
          simp only [roleAttr, List.map_cons, List.map_nil, List.mem_cons, List.not_mem_nil, or_false] at hy
          subst hy
          exact ⟨_, rfl⟩
      · simp only [List.mem_singleton] at hy
        injection hy with hy
        subst hy
        exact ⟨_, rfl⟩
    · cases hit
  · intro g hg
    unfold anyRolePolicy at hg
    cases hg with
    | rule h1 h2 h3 h4 =>
      simp only [List.mem_singleton] at h1
      subst h1
      injection h2 with h2
      subst h2
      injection h3 with h3
      subst h3
      cases h4 with
      | inside h5 h6 =>
        simp only [List.mem_cons, List.not_mem_nil, or_false] at h5
        rcases h5 with rfl | rfl
        · cases h6
        · cases h6 with
          | inside h7 h8 =>
            simp only [List.mem_cons, List.not_mem_nil, or_false] at h7
            rcases h7 with rfl | rfl <;> cases h8
end

/-! ## C93 -/

private theorem section_reordered {env : Env} {r : Request} {cs cs' : List TargetChild} (h : SectionReordered cs cs')
    {es : List (List Bool)} (he : SectionMeans env r cs es) :
    ∃ es', SectionMeans env r cs' es' ∧ (SectionMatches es ↔ SectionMatches es') := by
  obtain ⟨m, hp, hm⟩ := h
  obtain ⟨es1, hpe, he1⟩ := each_perm hp he
  have inner : ∀ {m cs' : List TargetChild} {es : List (List Bool)},
      Each (fun c c' : TargetChild => c.matches_.Perm c'.matches_) m cs' → SectionMeans env r m es →
      ∃ es', SectionMeans env r cs' es' ∧ Each (fun a b : List Bool => a.Perm b) es es' := by
    intro m
    induction m with
    | nil =>
      intro cs' es h he
      rw [each_nil] at h
      subst h
      unfold SectionMeans at he ⊢
      rw [each_nil] at he
      subst he
      exact ⟨[], rfl, rfl⟩
    | cons c m ih =>
      rintro _ _ ⟨c', cs', rfl, h1, h2⟩ ⟨bs, es, rfl, g1, g2⟩
      obtain ⟨es', k1, k2⟩ := ih h2 g2
      obtain ⟨bs', hb, g1'⟩ := each_perm h1 g1
      exact ⟨bs' :: es', ⟨bs', es', rfl, g1', k1⟩, bs', es', rfl, hb, k2⟩
  obtain ⟨es2, he2, hpe2⟩ := inner hm he1
  refine ⟨es2, he2, ?_⟩
  have hmem : ∀ {a b : List (List Bool)}, Each (fun a b : List Bool => a.Perm b) a b →
      (SectionMatches a ↔ SectionMatches b) := by
    have dir : ∀ {a b : List (List Bool)}, Each (fun a b : List Bool => a.Perm b) a b → SectionMatches a → SectionMatches b := by
      intro a b hab hs
      unfold SectionMatches at *
      rcases hs with rfl | ⟨e, he, hall⟩
      · exact .inl hab
      · refine .inr ?_
        induction a generalizing b with
        | nil => simp at he
        | cons x a ih =>
          obtain ⟨y, b', rfl, hxy, hab⟩ := hab
          rcases List.mem_cons.1 he with rfl | he
          · exact ⟨y, by simp, fun z hz => hall z (hxy.mem_iff.2 hz)⟩
          · obtain ⟨z, hz, h⟩ := ih hab he
            exact ⟨z, by simp [hz], h⟩
    intro a b hab
    exact ⟨dir hab, dir (each_imp (fun _ _ h => List.Perm.symm h) (each_flip hab))⟩
  rw [← hmem hpe2]
  unfold SectionMatches
  constructor
  · rintro (rfl | ⟨e, he, h⟩)
    · exact .inl hpe.nil_eq.symm
    · exact .inr ⟨e, hpe.mem_iff.1 he, h⟩
  · rintro (rfl | ⟨e, he, h⟩)
    · exact .inl hpe.eq_nil
    · exact .inr ⟨e, hpe.mem_iff.2 he, h⟩

private theorem applies_reordered {env : Env} {r : Request} {t t' : Option Target} (h : TargetReordered t t') {b : Bool}
    (hb : Applies env r t b) : Applies env r t' b := by
  cases t with
  | none => cases t' with
    | none => exact hb
    | some t' => exact h.elim
  | some t => cases t' with
    | none => exact h.elim
    | some t' =>
      obtain ⟨h1, h2, h3, h4⟩ := h
      obtain ⟨ss, rs, as, es, g1, g2, g3, g4, hb⟩ := hb
      obtain ⟨ss', k1, m1⟩ := section_reordered h1 g1
      obtain ⟨rs', k2, m2⟩ := section_reordered h2 g2
      obtain ⟨as', k3, m3⟩ := section_reordered h3 g3
      obtain ⟨es', k4, m4⟩ := section_reordered h4 g4
      exact ⟨ss', rs', as', es', k1, k2, k3, k4, by rw [hb, m1, m2, m3, m4]⟩

private theorem sectionReordered_symm {cs cs' : List TargetChild} (h : SectionReordered cs cs') : SectionReordered cs' cs := by
  obtain ⟨m, hp, he⟩ := h
  have he := each_flip he
  have key : ∀ {m l cs' : List TargetChild}, m.Perm l →
      Each (fun c c' : TargetChild => c'.matches_.Perm c.matches_) cs' m →
      ∃ k, cs'.Perm k ∧ Each (fun c c' : TargetChild => c.matches_.Perm c'.matches_) k l := by
    intro m l cs' hp
    induction hp generalizing cs' with
    | nil => intro h; exact ⟨cs', .refl _, each_imp (fun _ _ h => List.Perm.symm h) h⟩
    | cons a _ ih =>
      intro h
      obtain ⟨b, bs, rfl, h1, h2⟩ := each_flip h
      obtain ⟨k, hk, hek⟩ := ih (each_flip h2)
      exact ⟨b :: k, hk.cons b, a, _, rfl, h1.symm, hek⟩
    | swap a b l =>
      intro h
      obtain ⟨x, _, rfl, h1, y, bs, rfl, h2, h3⟩ := each_flip h
      exact ⟨y :: x :: bs, .swap _ _ _, a, _, rfl, h2.symm, b, _, rfl, h1.symm,
        each_imp (fun _ _ h => List.Perm.symm h) (each_flip h3)⟩
    | trans _ _ ih1 ih2 =>
      intro h
      obtain ⟨k, hk, hek⟩ := ih1 h
      obtain ⟨k', hk', hek'⟩ := ih2 (each_imp (fun _ _ h => List.Perm.symm h) hek)
      exact ⟨k', hk.trans hk', hek'⟩
  exact key hp.symm he

theorem targetReordered_symm {t t' : Option Target} (h : TargetReordered t t') : TargetReordered t' t := by
  cases t <;> cases t' <;> try exact h
  obtain ⟨h1, h2, h3, h4⟩ := h
  exact ⟨sectionReordered_symm h1, sectionReordered_symm h2, sectionReordered_symm h3, sectionReordered_symm h4⟩

/-- C93, targets: the order of the entries of a target and of the match elements in an entry does not
matter, whether the target is true, false or fails. -/
theorem C93_target (env : Env) (r : Request) (hs : StatelessPip (some r)) (t t' : Option Target)
    (h : TargetReordered t t') {w w' : World} (hw : History env.re w) (hw' : History env.re w') (b : Bool) :
    (targetMatch env t (some r) w).1 = .ok b ↔ (targetMatch env t' (some r) w').1 = .ok b := by
  rw [(target_stable env hs t).den (history_coh hw), (target_stable env hs t').den (history_coh hw'),
    target_den env r hs, target_den env r hs]
  exact ⟨applies_reordered h, applies_reordered (targetReordered_symm h)⟩

private theorem rule_reordered {env : Env} {r : Request} {a b : Rule} (h : RuleReordered a b) (d : Decision) :
    RuleMeans env r a d ↔ RuleMeans env r b d := by
  obtain ⟨h1, h2, h3⟩ := h
  have ht : ∀ x, Applies env r a.target x ↔ Applies env r b.target x := fun x =>
    ⟨applies_reordered h3, applies_reordered (targetReordered_symm h3)⟩
  exact ⟨ruleMeans_carry h1 ht fun x => by rw [h2], ruleMeans_carry h1.symm (fun x => (ht x).symm) fun x => by rw [h2]⟩

private theorem policiesMean_each {env : Env} {r : Request} {ps : List PolicyNode} {ds : List Decision} :
    PoliciesMean env r ps ds ↔ Each (PolicyMeans env r) ps ds := by
  induction ps generalizing ds with
  | nil => exact ⟨fun h => by cases h; rfl, fun h => by rw [each_nil] at h; subst h; exact .nil⟩
  | cons p ps ih =>
    constructor
    · intro h; cases h with | cons h1 h2 => exact ⟨_, _, rfl, h1, ih.1 h2⟩
    · rintro ⟨d, ds', rfl, h1, h2⟩; exact .cons h1 (ih.2 h2)

private theorem combinePolicies_perm {h : Header} (ho : Overrides h) {alg : Alg} (ha : h.alg = some alg)
    {ds ds' : List Decision} (hp : ds.Perm ds') : Spec.combinePolicies alg ds = Spec.combinePolicies alg ds' := by
  have hm : ∀ d, d ∈ ds ↔ d ∈ ds' := fun d => hp.mem_iff
  rcases ho with ho | ho <;> rw [ho] at ha <;> injection ha with ha <;> subst ha <;>
    simp only [Spec.combinePolicies, policyDenyOverrides, policyPermitOverrides, hm]

private theorem combineRules_perm {h : Header} (ho : Overrides h) {alg : Alg} (ha : h.alg = some alg)
    {es es' : List (Option Effect)} {ds ds' : List Decision} (hp : ds.Perm ds')
    (hz : (es.zip ds).Perm (es'.zip ds')) : Spec.combineRules alg es ds = Spec.combineRules alg es' ds' := by
  have hm : ∀ d, d ∈ ds ↔ d ∈ ds' := fun d => hp.mem_iff
  have hm' : ∀ d, d ∈ es.zip ds ↔ d ∈ es'.zip ds' := fun d => hz.mem_iff
  rcases ho with ho | ho <;> rw [ho] at ha <;> injection ha with ha <;> subst ha <;>
    simp only [Spec.combineRules, ruleDenyOverrides, rulePermitOverrides, hm, hm']

private theorem rules_shuffled {env : Env} {r : Request} {h : Header} (ho : Overrides h) {rs rs' : List Rule}
    (hp : rs.Perm rs') {d : Decision} (hd : PolicyMeans env r (.policy h rs) d) : PolicyMeans env r (.policy h rs') d := by
  cases hd with
  | rules g1 g2 g3 =>
    obtain ⟨ds', hz, he⟩ := each_perm_zip hp g3
    have hds := hz.map (·.2)
    rw [each_map_snd g3, each_map_snd he] at hds
    have hz' := hz.map (Prod.map (·.effect) id)
    rw [← List.zip_map_left, ← List.zip_map_left] at hz'
    rw [combineRules_perm ho g2 hds hz']
    exact .rules g1 g2 he
  | policyTargetFalse g => exact .policyTargetFalse g
  | policyTargetFails g => exact .policyTargetFails g

private theorem policies_shuffled {env : Env} {r : Request} {h : Header} (ho : Overrides h) {ps ps' : List PolicyNode}
    (hp : ps.Perm ps') {d : Decision} (hd : PolicyMeans env r (.policySet h ps) d) :
    PolicyMeans env r (.policySet h ps') d := by
  cases hd with
  | policies g1 g2 g3 =>
    obtain ⟨ds', hds, he⟩ := each_perm hp (policiesMean_each.1 g3)
    rw [combinePolicies_perm ho g2 hds]
    exact .policies g1 g2 (policiesMean_each.2 he)
  | setTargetFalse g => exact .setTargetFalse g
  | setTargetFails g => exact .setTargetFails g

mutual
private theorem policy_reordered {env : Env} {r : Request} : {p p' : PolicyNode} → PolicyReordered p p' → ∀ d,
    (PolicyMeans env r p d ↔ PolicyMeans env r p' d)
  | _, _, .policy h1 h2 h3, d => by
    have h : SamePolicy env r r _ _ := .policy h1 (fun b => ⟨applies_reordered h2, applies_reordered (targetReordered_symm h2)⟩)
      (each_imp (fun a b hab => ⟨hab.1, rule_reordered hab⟩) h3)
    exact ⟨policyMeans_carry h d, policyMeans_carry h.flip d⟩
  | _, _, .policySet h1 h2 h3, d => by
    have ht : ∀ b, _ ↔ _ := fun b => ⟨applies_reordered (env := env) (r := r) h2 (b := b), applies_reordered (targetReordered_symm h2)⟩
    have hp := fun ds => policies_reordered (env := env) (r := r) h3 ds
    constructor
    · intro h
      cases h with
      | policies g1 g2 g3 => exact .policies ((ht _).1 g1) (h1 ▸ g2) ((hp _).1 g3)
      | setTargetFalse g => exact .setTargetFalse ((ht _).1 g)
      | setTargetFails g => exact .setTargetFails fun b hb => g b ((ht _).2 hb)
    · intro h
      cases h with
      | policies g1 g2 g3 => exact .policies ((ht _).2 g1) (h1 ▸ g2) ((hp _).2 g3)
      | setTargetFalse g => exact .setTargetFalse ((ht _).2 g)
      | setTargetFails g => exact .setTargetFails fun b hb => g b ((ht _).1 hb)
  | _, _, .rules ho hp, d => ⟨rules_shuffled ho hp, rules_shuffled ho hp.symm⟩
  | _, _, .policies ho hp, d => ⟨policies_shuffled ho hp, policies_shuffled ho hp.symm⟩
  | _, _, .trans h1 h2, d => (policy_reordered h1 d).trans (policy_reordered h2 d)
private theorem policies_reordered {env : Env} {r : Request} : {ps ps' : List PolicyNode} → PoliciesReordered ps ps' → ∀ ds,
    (PoliciesMean env r ps ds ↔ PoliciesMean env r ps' ds)
  | _, _, .nil, ds => Iff.rfl
  | _, _, .cons h1 h2, ds => by
    constructor
    · intro h; cases h with | cons g1 g2 => exact .cons ((policy_reordered h1 _).1 g1) ((policies_reordered h2 _).1 g2)
    · intro h; cases h with | cons g1 g2 => exact .cons ((policy_reordered h1 _).2 g1) ((policies_reordered h2 _).2 g2)
end

private theorem allComplete_mem {ps : List PolicyNode} : AllComplete ps ↔ ∀ p ∈ ps, Complete p := by
  induction ps with
  | nil => simp [AllComplete]
  | cons p ps ih => simp [AllComplete, ih]

mutual
private theorem complete_reordered : {p p' : PolicyNode} → PolicyReordered p p' → Complete p → Complete p'
  | _, _, .policy h1 _ h3, hc => by
    unfold Complete at hc ⊢
    refine ⟨h1 ▸ hc.1, ?_⟩
    have : ∀ {rs rs' : List Rule}, Each RuleReordered rs rs' → (∀ r ∈ rs, r.effect ≠ none) → ∀ r ∈ rs', r.effect ≠ none := by
      intro rs
      induction rs with
      | nil => intro rs' h _; rw [each_nil] at h; subst h; simp
      | cons a rs ih =>
        rintro _ ⟨b, bs, rfl, g1, g2⟩ hr
        simp only [List.forall_mem_cons] at hr ⊢
        exact ⟨g1.1 ▸ hr.1, ih g2 hr.2⟩
    exact this h3 hc.2
  | _, _, .policySet h1 _ h3, hc => by
    unfold Complete at hc ⊢
    exact ⟨h1 ▸ hc.1, completes_reordered h3 hc.2⟩
  | _, _, .rules _ hp, hc => by
    unfold Complete at hc ⊢
    exact ⟨hc.1, fun r hr => hc.2 r (hp.mem_iff.2 hr)⟩
  | _, _, .policies _ hp, hc => by
    unfold Complete at hc ⊢
    exact ⟨hc.1, allComplete_mem.2 fun p h => allComplete_mem.1 hc.2 p (hp.mem_iff.2 h)⟩
  | _, _, .trans h1 h2, hc => complete_reordered h2 (complete_reordered h1 hc)
private theorem completes_reordered : {ps ps' : List PolicyNode} → PoliciesReordered ps ps' → AllComplete ps → AllComplete ps'
  | _, _, .nil, hc => hc
  | _, _, .cons h1 h2, hc => by
    unfold AllComplete at hc ⊢
    exact ⟨complete_reordered h1 hc.1, completes_reordered h2 hc.2⟩
end

/-- C93: a policy with its targets in another order, at any depth, and the rules and policies below overrides
algorithms too, gives the same response, after any histories. -/
theorem C93_policy (env : Env) (p p' : PolicyNode) (hc : Complete p) (h : PolicyReordered p p') (r : Request)
    (hs : StatelessPip (some r)) {w w' : World} (hw : History env.re w) (hw' : History env.re w') :
    (pdpEvaluate env (some p) (some r) w).1 = (pdpEvaluate env (some p') (some r) w').1 :=
  pdp_of_means hs hs hc (complete_reordered h hc) (policy_reordered h) hw hw'

section
open Samples

/-- A target with two entries, one of two match elements, and the same in another order. -/
private def twoEntries : Target :=
  { subjects := [{ matches_ := [roleMatch "admin", roleMatch "staff"] }, { matches_ := [roleMatch "guest"] }]
    resources := [], actions := [], environments := [] }
private def twoEntries' : Target :=
  { subjects := [{ matches_ := [roleMatch "guest"] }, { matches_ := [roleMatch "staff", roleMatch "admin"] }]
    resources := [], actions := [], environments := [] }

private theorem twoEntries_reordered : TargetReordered (some twoEntries) (some twoEntries') :=
  ⟨⟨_, .swap _ _ _, _, _, rfl, .refl _, _, _, rfl, .swap _ _ _, rfl⟩, ⟨[], .refl _, rfl⟩, ⟨[], .refl _, rfl⟩, ⟨[], .refl _, rfl⟩⟩

/-- The hypotheses of `C93_policy` are met by a policy set whose policies are swapped and whose rules and
targets are reordered; it permits. -/
example : (pdpEvaluate env (some (.policySet (hdr .denyOverrides) [.policy (hdr .permitOverrides) [roleRule .deny "admin"],
      .policy (hdr .permitOverrides (some twoEntries)) [failing .deny, always .permit]])) ctx start).1 =
    (pdpEvaluate env (some (.policySet (hdr .denyOverrides) [.policy (hdr .permitOverrides (some twoEntries')) [always .permit, failing .deny],
      .policy (hdr .permitOverrides) [roleRule .deny "admin"]])) ctx start).1 := by
  have st : StatelessPip ctx := by
    intro r hr pip hp
    injection hr with hr
    subst hr
    cases hp
  refine C93_policy env _ _ (by simp [Complete, AllComplete, hdr, roleRule, failing, always]) ?_ _ st .start .start
  refine .trans (.policies (.inl rfl) (.swap _ _ _)) (.policySet rfl trivial (.cons ?_ (.cons ?_ .nil)))
  · exact .trans (.rules (.inr rfl) (.swap _ _ _)) (.policy rfl twoEntries_reordered (each_self fun r hr => ⟨rfl, rfl, by
      simp only [List.mem_cons, List.not_mem_nil, or_false] at hr
      rcases hr with rfl | rfl
      · trivial
      · exact ⟨⟨_, .refl _, each_self fun _ _ => .refl _⟩, ⟨_, .refl _, rfl⟩, ⟨_, .refl _, rfl⟩, ⟨_, .refl _, rfl⟩⟩⟩))
  · exact .rules (.inr rfl) (.refl _)
end

end Xacml
