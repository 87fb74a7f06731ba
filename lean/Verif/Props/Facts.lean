import Verif.Props.Reordering
import Verif.Spec.Facts

/-!
# C116: a request is a collection of facts
-/
namespace Xacml
open Spec

private theorem designated_facts (d : Designator) (as : List Attribute) :
    designated d as = ((facts as).filter fun f => decide (f.attributeId = d.attributeId ∧ f.dataType = d.dataType ∧
      (d.issuer = none ∨ f.issuer = d.issuer)) && decide (some f.value.dataType = d.dataType)).map (·.value) := by
  rw [designated_eq]
  unfold facts
  induction as with
  | nil => rfl
  | cons a as ih =>
    rw [List.flatMap_cons, List.flatMap_cons, ih, List.filter_append, List.map_append]
    congr 1
    have hsel : AttrSelected d a ↔
        (a.attributeId = d.attributeId ∧ a.dataType = d.dataType ∧ (d.issuer = none ∨ a.issuer = d.issuer)) := by
      unfold AttrSelected
      cases d.issuer <;> simp
    rw [List.filter_map, List.map_map]
    have hid : ((·.value) ∘ fun v : AttrVal => (⟨a.attributeId, a.dataType, a.issuer, v⟩ : Fact)) = id := rfl
    rw [hid, List.map_id]
    by_cases h : AttrSelected d a
    · rw [if_pos h]
      have h' := hsel.1 h
      congr 1
      funext v
      simp [h']
    · rw [if_neg h]
      have h' := fun k => h (hsel.2 k)
      symm
      rw [List.filter_eq_nil_iff]
      intro v _
      simp only [Function.comp, Bool.and_eq_true, decide_eq_true_eq, not_and]
      exact fun k => (h' k).elim

private theorem designated_same (d : Designator) {as as' : List Attribute} (h : SameFacts as as') :
    (designated d as).Perm (designated d as') := by
  rw [designated_facts, designated_facts]
  exact (h.filter _).map _

private theorem says_looksAlike {r r' : Request} (h : SaysSame r.data r'.data) (cat : Category)
    (hn : cat = .subject → r.ctxHandler = none ∧ r'.ctxHandler = none) (d : Designator) :
    LooksAlike r r' (.designator cat d) := by
  refine ⟨hn, ?_⟩
  have part : ∀ a b, PartSays a b → (match a, b with
      | none, none => True
      | some as, some as' => (designated d as).Perm (designated d as')
      | _, _ => False) := by
    intro a b hab
    cases a <;> cases b <;> simp only [PartSays] at hab ⊢
    exact designated_same d hab
  cases cat with
  | subject => exact designated_same d h.subjects
  | resource => exact designated_same d h.resources
  | action => exact part _ _ h.action
  | environment => exact part _ _ h.environment

/-- **C116.** Requests without context handler that say the same get the same response, however their values are
grouped into attributes, subjects and resources, after any histories. XPath must find the same in both, where the
policy has selectors; custom functions must not look at the order of bags. -/
theorem C116_facts (env : Env) (p : PolicyNode) (hc : Complete p) (r r' : Request) (hr : SaysSame r.data r'.data)
    (h1 : r.ctxHandler = none) (h2 : r'.ctxHandler = none) (hx : ∀ s, InPolicy (.selector s) p → SelectsAlike r r' s)
    (hf : ∀ g, AppliedIn (.custom g) p → OrderBlind g) {w w' : World} (hw : History env.re w) (hw' : History env.re w') :
    (pdpEvaluate env (some p) (some r) w).1 = (pdpEvaluate env (some p) (some r') w').1 := by
  have st : ∀ r : Request, r.ctxHandler = none → StatelessPip (some r) := by
    intro r h r0 h0 pip hp
    injection h0 with h0
    subst h0
    rw [h] at hp
    cases hp
  refine C92_alike env p hc r r' (st r h1) (st r' h2) (fun l hl => ?_) hf hw hw'
  cases l with
  | designator cat d => exact says_looksAlike hr cat (fun _ => ⟨h1, h2⟩) d
  | selector s => exact hx s hl

/-- **C116, with a context handler.** The same for requests that say the same of each subject, if the context handler
answers alike, with values that can be compared with those in the request (and with each other, if it is asked about
several subjects). -/
theorem C116_handler (env : Env) (p : PolicyNode) (hc : Complete p) (r r' : Request) (hr : SaysSame r.data r'.data)
    (hsub : Each (fun s s' : CtxSubject => SameFacts s.attributes s'.attributes) r.data.subjects r'.data.subjects)
    (pip pip' : Pip) (h1 : r.ctxHandler = some pip)
    (h2 : r'.ctxHandler = some pip') (hs : StatelessPip (some r)) (hs' : StatelessPip (some r'))
    (hask : ∀ d, pip' [] ⟨r'.data, d⟩ = pip [] ⟨r.data, d⟩)
    (hcmp : ∀ d it, pip [] ⟨r.data, d⟩ = .ok (.iter it) → ∀ v, .av v ∈ it.items → ∀ y,
      (∃ s ∈ r.data.subjects, y ∈ designated d s.attributes) ∨ 1 < r.data.subjects.length ∧ .av y ∈ it.items →
      ∃ b, y.pyEq v = .ok b)
    (hx : ∀ s, InPolicy (.selector s) p → SelectsAlike r r' s)
    (hf : ∀ g, AppliedIn (.custom g) p → OrderBlind g) {w w' : World} (hw : History env.re w) (hw' : History env.re w') :
    (pdpEvaluate env (some p) (some r) w).1 = (pdpEvaluate env (some p) (some r') w').1 :=
  alike_handler env p hc r r' (fun d => each_imp (fun _ _ h => designated_same d h) hsub) pip pip' h1 h2 hs hs' hask hcmp
    (fun cat d hcat => says_looksAlike hr cat (fun h => (hcat h).elim) d) hx hf hw hw'

section NonVacuity
open Samples

private def merged : CtxSubject := { category := none, attributes := [roleAttr ["staff", "guest"]] }
private def split : CtxSubject :=
  { category := none, attributes := [roleAttr ["guest"], { roleAttr ["x"] with values := [] }, roleAttr ["staff"]] }

private theorem merged_split : SaysSame (subjectsData [merged]) (subjectsData [split]) where
  subjects := .swap _ _ _
  resources := .refl _
  action := .refl (facts [actAttr "read"])
  environment := trivial

/-- The hypotheses of `C116_facts` are met by one attribute with two values and three attributes with one value, none
and one; the response is Permit. -/
example :
    let p := PolicyNode.policy (hdr .denyOverrides) [roleRule .permit "staff"]
    SaysSame (subjectsData [merged]) (subjectsData [split]) ∧ Complete p ∧
      (∀ s, InPolicy (.selector s) p → SelectsAlike ⟨subjectsData [merged], none, none⟩ ⟨subjectsData [split], none, none⟩ s) ∧
      (∀ g, AppliedIn (.custom g) p → OrderBlind g) ∧ History env.re start ∧
      (pdpEvaluate env (some p) (some ⟨subjectsData [merged], none, none⟩) start).1 =
        .ok { results := [Result.createInitialised .permit] } := by
  refine ⟨merged_split, by simp [Complete, hdr, roleRule], fun _ _ => trivial, fun g hg => ?_, .start, of_gives (by decide +kernel)⟩
  cases hg with
  | rule h1 h2 h3 h4 =>
    simp only [List.mem_singleton] at h1
    subst h1
    cases h2

/-- The hypotheses of `C116_handler` are met by the same subjects with a context handler that knows another role. -/
example :
    let p := PolicyNode.policy (hdr .denyOverrides) [roleRule .permit "admin"]
    let r : Request := ⟨subjectsData [merged], some adminPip, none⟩
    let r' : Request := ⟨subjectsData [split], some adminPip, none⟩
    StatelessPip (some r) ∧ StatelessPip (some r') ∧ (∀ d, adminPip [] ⟨r'.data, d⟩ = adminPip [] ⟨r.data, d⟩) ∧
    Each (fun s s' : CtxSubject => SameFacts s.attributes s'.attributes) r.data.subjects r'.data.subjects ∧
    (∀ d it, adminPip [] ⟨r.data, d⟩ = .ok (.iter it) → ∀ v, .av v ∈ it.items → ∀ y,
      (∃ s ∈ r.data.subjects, y ∈ designated d s.attributes) ∨ 1 < r.data.subjects.length ∧ .av y ∈ it.items →
      ∃ b, y.pyEq v = .ok b) ∧
    (pdpEvaluate env (some p) (some r) start).1 = .ok { results := [Result.createInitialised .permit] } ∧
    (pdpEvaluate env (some p) (some r') start).1 = .ok { results := [Result.createInitialised .permit] } := by
  have st : ∀ d, StatelessPip (some ⟨d, some adminPip, none⟩) := by
    intro d r hr pip hp log log' q
    injection hr with hr
    subst hr
    injection hp with hp
    subst hp
    rfl
  refine ⟨st _, st _, fun d => rfl, ⟨split, [], rfl, .swap _ _ _, rfl⟩, ?_, of_gives (by decide +kernel), of_gives (by decide +kernel)⟩
  intro d it hit v hv y hy
  unfold adminPip at hit
  split at hit
  · injection hit with hit
    injection hit with hit
    subst hit
    simp only [List.mem_singleton] at hv
    injection hv with hv
    subst hv
    rcases hy with ⟨s, hs, hy⟩ | ⟨hl, _⟩
    case inr => exact absurd hl (by decide)
    simp only [subjectsData, List.mem_singleton] at hs
    subst hs
    unfold designated at hy
    rw [List.mem_flatMap] at hy
    obtain ⟨a, ha, hy⟩ := hy
    replace ha := (List.mem_filter.1 ha).1
    simp only [merged, List.mem_singleton] at ha
    subst ha
    replace hy := (List.mem_filter.1 hy).1
    simp only [roleAttr, List.map_cons, List.map_nil, List.mem_cons, List.not_mem_nil, or_false] at hy
    rcases hy with rfl | rfl <;> exact ⟨_, rfl⟩
  · cases hit

/-- How often something is said matters: the one and only role said twice is not one and only. -/
theorem C116_repetition_matters :
    (pdpEvaluate env (some onlyRolePolicy) (some ⟨subjectsData [roleSubject ["admin"]], none, none⟩) start).1 =
      .ok { results := [Result.createInitialised .permit] } ∧
    (pdpEvaluate env (some onlyRolePolicy) (some ⟨subjectsData [roleSubject ["admin", "admin"]], none, none⟩) start).1 =
      .ok { results := [Result.createInitialised .indeterminate] } :=
  ⟨of_gives (by decide +kernel), of_gives (by decide +kernel)⟩

end NonVacuity
end Xacml
