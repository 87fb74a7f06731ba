import Verif.Lemmas.Transport
import Verif.Spec.Renaming
import Verif.Props.Reordering

/-!
# C94: the names of attributes and issuers are only names
-/
namespace Xacml
open Spec

variable {n : Naming}

private theorem map_inj {f : String → String} (hf : ∀ a b, f a = f b → a = b) {a b : Option String} :
    a.map f = b.map f ↔ a = b := by
  cases a <;> cases b <;> simp
  exact ⟨hf _ _, fun h => by rw [h]⟩

private theorem selected_named (hn : n.OneToOne) (d : Designator) (a : Attribute) :
    AttrSelected (n.inDesignator d) (n.inAttribute a) ↔ AttrSelected d a := by
  unfold AttrSelected Naming.inDesignator Naming.inAttribute
  rw [map_inj hn.1]
  refine and_congr Iff.rfl (and_congr Iff.rfl ?_)
  cases d.issuer with
  | none => simp
  | some i =>
    simp only [Option.map_some, Option.some.injEq, forall_eq']
    exact map_inj hn.2 (b := some i)

private theorem designated_named (hn : n.OneToOne) (d : Designator) (as : List Attribute) :
    designated (n.inDesignator d) (as.map n.inAttribute) = designated d as := by
  unfold designated
  induction as with
  | nil => rfl
  | cons a as ih =>
    simp only [List.map_cons, List.filter_cons, selected_named hn]
    split
    · simp only [List.flatMap_cons, ih]; rfl
    · exact ih

private theorem attributesOf_named (cat : Category) (d : ReqData) :
    attributesOf cat (n.inData d) = (attributesOf cat d).map (·.map n.inAttribute) := by
  cases cat with
  | subject =>
    simp only [attributesOf, Naming.inData, Option.map_some, Option.some.injEq]
    induction d.subjects with
    | nil => rfl
    | cons s l ih => simp [ih]
  | resource =>
    simp only [attributesOf, Naming.inData, Option.map_some, Option.some.injEq]
    induction d.resources with
    | nil => rfl
    | cons s l ih => simp [ih]
  | action => rfl
  | environment => rfl

private theorem pipValues_named {env : Env} {r r' : Request} {d : Designator} {pip pip' : Pip} (hn : n.OneToOne)
    (hd : r'.data = n.inData r.data) (hp : pip' [] ⟨n.inData r.data, n.inDesignator d⟩ = pip [] ⟨r.data, d⟩)
    (ss : List CtxSubject) (known vs : List AttrVal) :
    PipValues env r' pip' (n.inDesignator d) (ss.map fun s => { s with attributes := s.attributes.map n.inAttribute }) known vs ↔
      PipValues env r pip d ss known vs := by
  induction ss generalizing known with
  | nil => constructor <;> (intro h; cases h; exact .nil)
  | cons s ss ih =>
    constructor
    · intro h
      cases h with
      | cons h1 h2 h3 h4 =>
        simp only [designated_named hn] at h1 h3 h4
        rw [hd, hp] at h2
        exact .cons h1 h2 h3 ((ih _).1 h4)
    · intro h
      cases h with
      | @cons _ _ _ ans new _ h1 h2 h3 h4 =>
        refine .cons (new := new) ?_ (by rw [hd, hp]; exact h2) ?_ ((ih _).2 ?_)
        · simp only [designated_named hn]; exact h1
        · simp only [designated_named hn]; exact h3
        · simp only [designated_named hn]; exact h4

private theorem designator_named {env : Env} {r r' : Request} (hn : n.OneToOne) (hd : r'.data = n.inData r.data)
    (hp : SameAnswers n r.ctxHandler r'.ctxHandler) (cat : Category) (d : Designator) (vs : List AttrVal) :
    DesignatorMeans env r' cat (n.inDesignator d) vs ↔ DesignatorMeans env r cat d vs := by
  have hnone : r'.ctxHandler = none ↔ r.ctxHandler = none := by
    cases h : r.ctxHandler <;> cases h' : r'.ctxHandler <;> rw [h, h'] at hp <;> simp_all [SameAnswers]
  constructor
  · intro h
    cases h with
    | request h1 h2 h3 h4 =>
      rw [hd, attributesOf_named] at h2
      cases ha : attributesOf cat r.data with
      | none => rw [ha] at h2; cases h2
      | some as =>
        rw [ha] at h2
        injection h2 with h2
        subst h2
        rw [designated_named hn] at h3 h4 ⊢
        exact .request (fun hc => hnone.1 (h1 hc)) ha h3 h4
    | pip h1 h2 h3 =>
      cases hx : r.ctxHandler with
      | none => rw [hnone.2 hx] at h1; cases h1
      | some pip0 =>
        rw [hx, h1] at hp
        rw [hd] at h2
        exact .pip hx ((pipValues_named hn hd (hp _ _ _ _) _ _ _).1 h2) h3
  · intro h
    cases h with
    | @request _ _ as h1 h2 h3 h4 =>
      have hr : attributesOf cat r'.data = some (as.map n.inAttribute) := by rw [hd, attributesOf_named, h2]; rfl
      have := DesignatorMeans.request (env := env) (r := r') (cat := cat) (d := n.inDesignator d)
        (fun hc => hnone.2 (h1 hc)) hr (by rw [designated_named hn]; exact h3) (by rw [designated_named hn]; exact h4)
      rwa [designated_named hn] at this
    | pip h1 h2 h3 =>
      cases hx : r'.ctxHandler with
      | none => rw [hnone.1 hx] at h1; cases h1
      | some pip0 =>
        rw [h1, hx] at hp
        exact .pip hx (by rw [hd]; exact (pipValues_named hn hd (hp _ _ _ _) _ _ _).2 h2) h3

/-- The designator with the new names, or the same selector. -/
private def Named (n : Naming) (l l' : Reading) : Prop :=
  (∃ cat d, l = .designator cat d ∧ l' = .designator cat (n.inDesignator d)) ∨ ∃ s, l = .selector s ∧ l' = .selector s

private theorem named_carries {env : Env} {r r' : Request} (hn : n.OneToOne) (hd : r'.data = n.inData r.data)
    (hp : SameAnswers n r.ctxHandler r'.ctxHandler) (hx : r'.attributeSelector = r.attributeSelector) {l l' : Reading}
    (h : Named n l l') : Carries env r r' Eq l l' ∧ Carries env r' r Eq l' l := by
  rcases h with ⟨cat, d, rfl, rfl⟩ | ⟨s, rfl, rfl⟩
  · exact ⟨fun t vs h => ⟨vs, ⟨h.1, (designator_named hn hd hp cat d vs).2 h.2⟩, .refl _, rfl⟩,
      fun t vs h => ⟨vs, ⟨h.1, (designator_named hn hd hp cat d vs).1 h.2⟩, .refl _, rfl⟩⟩
  · refine ⟨fun t vs h => ⟨vs, ⟨h.1, ?_⟩, .refl _, rfl⟩, fun t vs h => ⟨vs, ⟨h.1, ?_⟩, .refl _, rfl⟩⟩
    · have h := h.2
      unfold SelectorMeans at h ⊢
      rw [hx]; exact h
    · have h := h.2
      unfold SelectorMeans at h ⊢
      rw [← hx]; exact h

mutual
private theorem expr_named : (e : Expr) → ExprRel (Named n) (fun _ => True) e (n.inExpr e)
  | .value v => by unfold Naming.inExpr; exact .value v
  | .designator c d => by unfold Naming.inExpr; exact .designator (.inl ⟨_, _, rfl, rfl⟩)
  | .selector s => by unfold Naming.inExpr; exact .selector (.inr ⟨_, rfl, rfl⟩)
  | .apply f args => by unfold Naming.inExpr; exact .apply (fun _ _ => trivial) (exprs_named args)
private theorem exprs_named : (es : List Expr) → ExprsRel (Named n) (fun _ => True) es (n.inExprs es)
  | [] => by unfold Naming.inExprs; exact .nil
  | e :: es => by unfold Naming.inExprs; exact .cons (expr_named e) (exprs_named es)
end

private theorem match_named (m : Match) : MatchRel (Named n) m (n.inMatch m) := by
  refine ⟨rfl, rfl, ?_⟩
  cases hd : m.designator with
  | some p => exact .inl ⟨p.1, p.2, p.1, n.inDesignator p.2, rfl, by simp [Naming.inMatch, hd], .inl ⟨_, _, rfl, rfl⟩⟩
  | none =>
    refine .inr ⟨rfl, by simp [Naming.inMatch, hd], ?_⟩
    cases hs : m.selector with
    | none => exact .inl ⟨rfl, hs⟩
    | some s => exact .inr ⟨s, s, rfl, hs, .inr ⟨_, rfl, rfl⟩⟩

private theorem target_named (t : Option Target) : TargetRel (MatchRel (Named n)) t (t.map n.inTarget) := by
  cases t with
  | none => exact .inl ⟨rfl, rfl⟩
  | some t =>
    have sec : ∀ cs, SectionRel (MatchRel (Named n)) cs (n.inSection cs) := fun cs =>
      each_map_right _ fun c _ => each_map_right _ fun m _ => match_named m
    exact .inr ⟨t, n.inTarget t, rfl, rfl, sec _, sec _, sec _, sec _⟩

section
variable {env : Env} {r r' : Request} (hn : n.OneToOne) (hd : r'.data = n.inData r.data)
  (hp : SameAnswers n r.ctxHandler r'.ctxHandler) (hx : r'.attributeSelector = r.attributeSelector)
include hn hd hp hx

private theorem applies_named (t : Option Target) (b : Bool) : Applies env r t b ↔ Applies env r' (t.map n.inTarget) b := by
  have ht := target_named (n := n) t
  constructor
  · exact applies_carry (fun m m' hm b hb =>
      matchMeans_carry (Q := Eq) (fun l l' hl => (named_carries hn hd hp hx hl).1) hm hb) ht
  · exact applies_carry (M := fun m m' => MatchRel (Named n) m' m) (fun m m' hm b hb =>
      matchMeans_carry (Q := Eq) (L := fun a b => Named n b a) (fun l l' hl => (named_carries hn hd hp hx hl).2) hm.flip hb)
      (ht.flip fun _ _ h => h)

private theorem holds_named (c : Option Condition) (b : Bool) :
    Holds env r c b ↔ Holds env r' (c.map fun c => { c with expression := c.expression.map n.inExpr }) b := by
  have hc : CondRel (Named n) (fun _ => True) c (c.map fun c => { c with expression := c.expression.map n.inExpr }) := by
    cases c with
    | none => exact .inl ⟨rfl, rfl⟩
    | some c =>
      refine .inr ⟨_, _, rfl, rfl, ?_⟩
      cases he : c.expression with
      | none => exact .inl ⟨rfl, by simp [he]⟩
      | some e => exact .inr ⟨e, n.inExpr e, rfl, by simp [he], expr_named e⟩
  have hF : ∀ f : Func, True → FuncRespects env.re Eq f := by
    intro f _ xs xs' hxs x h
    have : ∀ {xs xs' : List PyVal}, Each Eq xs xs' → xs = xs' := by
      intro xs
      induction xs with
      | nil => intro xs' h; exact (each_nil.1 h).symm
      | cons a xs ih => rintro _ ⟨b, bs, rfl, rfl, h⟩; rw [ih h]
    exact ⟨x, this hxs ▸ h, rfl⟩
  have hfalse : ∀ x x' : PyVal, x = x' → (RegardedFalse x ↔ RegardedFalse x') := fun _ _ h => by rw [h]
  constructor
  · exact holds_carry (fun _ => rfl) hfalse (fun l l' hl => (named_carries hn hd hp hx hl).1) hF hc
  · exact holds_carry (L := fun a b => Named n b a) (fun _ => rfl) hfalse
      (fun l l' hl => (named_carries hn hd hp hx hl).2) hF hc.flip

mutual
private theorem policy_named : (p : PolicyNode) → SamePolicy env r r' p (n.inPolicy p)
  | .policy h rules => by
    unfold Naming.inPolicy
    refine .policy rfl (applies_named hn hd hp hx _) (each_map_right _ fun rule _ => ⟨rfl, fun d => ?_⟩)
    have ht := applies_named (env := env) hn hd hp hx rule.target
    have hc := holds_named (env := env) hn hd hp hx rule.condition
    exact ⟨ruleMeans_carry (a := rule) (b := n.inRule rule) rfl ht hc,
      ruleMeans_carry (a := n.inRule rule) (b := rule) rfl (fun b => (ht b).symm) fun b => (hc b).symm⟩
  | .policySet h ps => by
    unfold Naming.inPolicy
    exact .policySet rfl (applies_named hn hd hp hx _) (policies_named ps)
private theorem policies_named : (ps : List PolicyNode) → SamePolicies env r r' ps (n.inPolicies ps)
  | [] => by unfold Naming.inPolicies; exact .nil
  | p :: ps => by unfold Naming.inPolicies; exact .cons (policy_named p) (policies_named ps)
end
end

mutual
private theorem complete_named : (p : PolicyNode) → Complete p → Complete (n.inPolicy p)
  | .policy h rules, hc => by
    unfold Complete at hc
    unfold Naming.inPolicy Complete
    refine ⟨hc.1, fun r hr => ?_⟩
    obtain ⟨r0, h0, rfl⟩ := List.mem_map.1 hr
    exact hc.2 r0 h0
  | .policySet h ps, hc => by
    unfold Complete at hc
    unfold Naming.inPolicy Complete
    exact ⟨hc.1, completes_named ps hc.2⟩
private theorem completes_named : (ps : List PolicyNode) → AllComplete ps → AllComplete (n.inPolicies ps)
  | [], _ => by unfold Naming.inPolicies; trivial
  | p :: ps, hc => by
    unfold AllComplete at hc
    unfold Naming.inPolicies AllComplete
    exact ⟨complete_named p hc.1, completes_named ps hc.2⟩
end

/-- C94: giving attributes and issuers other names, in the policy, the request and the questions to the
context handler alike, and different ones to different ones, does not change the response. Data types, values
and subject categories stay, and XPath finds the same in both requests. -/
theorem C94_names (env : Env) (n : Naming) (hn : n.OneToOne) (p : PolicyNode) (hc : Complete p) (r r' : Request)
    (hd : r'.data = n.inData r.data) (hp : SameAnswers n r.ctxHandler r'.ctxHandler)
    (hx : r'.attributeSelector = r.attributeSelector) (hs : StatelessPip (some r)) (hs' : StatelessPip (some r'))
    {w w' : World} (hw : History env.re w) (hw' : History env.re w') :
    (pdpEvaluate env (some p) (some r) w).1 = (pdpEvaluate env (some (n.inPolicy p)) (some r') w').1 := by
  have h := policy_named (env := env) hn hd hp hx p
  exact pdp_of_means hs hs' hc (complete_named p hc) (fun d => ⟨policyMeans_carry h d, policyMeans_carry h.flip d⟩) hw hw'

section
open Samples

/-- Other names for attributes. -/
private def urn : Naming := { ofAttribute := fun s => "urn:" ++ s, ofIssuer := fun s => s ++ "." }

private theorem urn_oneToOne : urn.OneToOne := by
  constructor
  · intro a b h
    have h : "urn:" ++ a = "urn:" ++ b := h
    have h := congrArg String.toList h
    simp only [String.toList_append] at h
    exact String.toList_inj.1 (List.append_cancel_left h)
  · intro a b h
    have h : a ++ "." = b ++ "." := h
    have h := congrArg String.toList h
    simp only [String.toList_append] at h
    exact String.toList_inj.1 (List.append_cancel_right h)

/-- The hypotheses of `C94_names` are met by a policy with a target and a condition that permits. -/
example : ∀ w, History env.re w →
    (pdpEvaluate env (some (urn.inPolicy anyRolePolicy)) (some ⟨urn.inData data, none, none⟩) w).1 =
      .ok { results := [Result.createInitialised .permit] } := by
  intro w hw
  have st : ∀ d, StatelessPip (some ⟨d, none, none⟩) := by
    intro d r hr pip hp
    injection hr with hr
    subst hr
    cases hp
  rw [← C94_names env urn urn_oneToOne anyRolePolicy (by simp [anyRolePolicy, Complete, hdr]) ⟨data, none, none⟩
    ⟨urn.inData data, none, none⟩ rfl trivial rfl (st _) (st _) .start hw]
  exact of_gives (by decide +kernel)

/-- Everything gets the same name. -/
private def oneName : Naming := { ofAttribute := fun _ => "a", ofIssuer := fun s => s }

/-- The names must stay different: when all attributes get the same name, a role is taken for a clearance
and the response changes. -/
theorem C94_must_differ :
    ∃ (n : Naming) (p : PolicyNode), Complete p ∧
    (pdpEvaluate env (some p) (some ⟨data, none, none⟩) start).1 = .ok { results := [Result.createInitialised .indeterminate] } ∧
    (pdpEvaluate env (some (n.inPolicy p)) (some ⟨n.inData data, none, none⟩) start).1 =
      .ok { results := [Result.createInitialised .notApplicable] } :=
  ⟨oneName, .policy (hdr .denyOverrides) [failing .deny], by simp [Complete, hdr, failing],
    of_gives (by decide +kernel), of_gives (by decide +kernel)⟩
end

end Xacml
