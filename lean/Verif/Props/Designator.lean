import Verif.Lemmas.Designator
import Verif.Lemmas.Combining
import Verif.Spec.Samples

/-!
# C13–C18, C55, C57: designators, selectors, Apply
-/
namespace Xacml
open Spec

/-! ## C13 -/

private theorem collectSubjects_noPip (r : Request) (d : Designator) (b : Bag) (ss : List CtxSubject)
    (w : World) (h : r.ctxHandler = none) :
    collectSubjects r d b ss w = (collectAttrs d b (ss.flatMap (·.attributes)), w) := by
  induction ss generalizing b with
  | nil => simp [collectSubjects, collectAttrs]
  | cons s ss ih =>
    simp only [collectSubjects, h, List.flatMap_cons, run_bind, run_ofExcept]
    rw [collectAttrs_eq d b s.attributes, collectAttrs_eq d b (_ ++ _), designated_append, List.all_append]
    cases h1 : (designated d s.attributes).all (okFor b.elementType) with
    | false => simp
    | true =>
      simp only [if_true, ih, Bool.true_and, collectAttrs_eq]
      simp

private theorem collectResources_eq (d : Designator) (b : Bag) (ss : List CtxResource) :
    collectResources d b ss = collectAttrs d b (ss.flatMap (·.attributes)) := by
  induction ss generalizing b with
  | nil => simp [collectResources, collectAttrs]
  | cons s ss ih =>
    simp only [collectResources, List.flatMap_cons]
    rw [collectAttrs_eq d b s.attributes, collectAttrs_eq d b (_ ++ _), designated_append, List.all_append]
    cases h1 : (designated d s.attributes).all (okFor b.elementType) with
    | false => simp
    | true =>
      simp only [if_true, ih, Bool.true_and, collectAttrs_eq]
      simp

private theorem designator_noPip (env : Env) (cat : Category) (d : Designator) (r : Request) (w : World)
    (attrs : List Attribute) (hpip : cat = .subject → r.ctxHandler = none)
    (hpart : attributesOf cat r.data = some attrs) :
    designatorEval env cat d (some r) w =
      (match collectAttrs d { elementType := classLookup env.classMap d.dataType, items := [] } attrs with
       | .ok b => checkPresent d.mustBePresent b
       | .error e => .error e, w) := by
  cases cat with
  | subject =>
    simp only [attributesOf, Option.some.injEq] at hpart
    subst hpart
    simp only [designatorEval, run_bind, collectSubjects_noPip _ _ _ _ _ (hpip rfl)]
    split <;> simp_all
  | resource =>
    simp only [attributesOf, Option.some.injEq] at hpart
    subst hpart
    simp only [designatorEval, run_bind, run_ofExcept, collectResources_eq]
    split <;> simp_all
  | action =>
    simp only [attributesOf] at hpart
    simp only [designatorEval, hpart, run_bind, run_ofExcept]
    split <;> simp_all
  | environment =>
    simp only [attributesOf] at hpart
    simp only [designatorEval, hpart, run_bind, run_ofExcept]
    split <;> simp_all

private theorem checkPresent_answer (m : List (String × AVClass)) (d : Designator) (vs : List AttrVal) :
    checkPresent d.mustBePresent { elementType := classLookup m d.dataType, items := vs }
      = answer m d vs := by
  unfold checkPresent answer
  cases vs <;> cases d.mustBePresent <;> simp

/-- C13: without a PIP, a designator returns exactly the designated values of its category, in
document order with multiplicity, and touches nothing. (`WellTyped` says that a value labelled
with a data type is an instance of the class registered for it.) -/
theorem C13_designator_exact (env : Env) (cat : Category) (d : Designator) (r : Request) (w : World)
    (attrs : List Attribute)
    (hpip : cat = .subject → r.ctxHandler = none)
    (hpart : attributesOf cat r.data = some attrs)
    (hty : ∀ v ∈ designated d attrs, WellTyped env.classMap d.dataType v) :
    designatorEval env cat d (some r) w = (answer env.classMap d (designated d attrs), w) := by
  rw [designator_noPip env cat d r w attrs hpip hpart, collectAttrs_eq]
  have : (designated d attrs).all (okFor (classLookup env.classMap d.dataType)) = true := by
    rw [List.all_eq_true]
    intro v hv
    exact (okFor_wellTyped _ _ _).2 (hty v hv)
  simp only [this, if_true, List.nil_append]
  rw [checkPresent_answer]

/-- C13, the values in words. -/
theorem C13_designated_iff (d : Designator) (attrs : List Attribute) (v : AttrVal) :
    v ∈ designated d attrs ↔ ∃ a ∈ attrs, a.attributeId = d.attributeId ∧ a.dataType = d.dataType ∧
      (∀ i, d.issuer = some i → a.issuer = some i) ∧ v ∈ a.values ∧ some v.dataType = d.dataType := by
  simp only [designated, List.mem_flatMap, List.mem_filter, decide_eq_true_eq]
  constructor
  · rintro ⟨a, ⟨ha, h1, h2, h3⟩, hv, h4⟩; exact ⟨a, ha, h1, h2, h3, hv, h4⟩
  · rintro ⟨a, ha, h1, h2, h3, hv, h4⟩; exact ⟨a, ⟨ha, h1, h2, h3⟩, hv, h4⟩

/-- C13 outside the hypotheses: a mislabelled value is a TypeError, a missing Action or
Environment an AttributeError, and so is a context that is not a Request a TypeError. -/
theorem C13_otherwise (env : Env) (cat : Category) (d : Designator) (r : Request) (w : World) :
    (∀ attrs, (cat = .subject → r.ctxHandler = none) → attributesOf cat r.data = some attrs →
      (∃ v ∈ designated d attrs, ¬ WellTyped env.classMap d.dataType v) →
      designatorEval env cat d (some r) w = (.error .typeError, w)) ∧
    (attributesOf cat r.data = none → designatorEval env cat d (some r) w = (.error .attributeError, w)) ∧
    designatorEval env cat d none w = (.error .typeError, w) := by
  refine ⟨?_, ?_, by cases cat <;> rfl⟩
  · rintro attrs hpip hpart ⟨v, hv, hn⟩
    rw [designator_noPip env cat d r w attrs hpip hpart, collectAttrs_eq]
    have : (designated d attrs).all (okFor (classLookup env.classMap d.dataType)) = false := by
      rw [Bool.eq_false_iff]
      intro h
      exact hn ((okFor_wellTyped _ _ _).1 (List.all_eq_true.1 h v hv))
    simp [this]
  · intro h
    cases cat <;> simp [attributesOf] at h <;> simp [designatorEval, h]

section NonVacuity
open Samples
example : attributesOf .subject data = some [roleAttr ["admin", "staff"]] := rfl
example : designated roleDes [roleAttr ["admin", "staff"], actAttr "read"] = [str "admin", str "staff"] := by
  decide +kernel
example : WellTyped env.classMap roleDes.dataType (str "admin") := ⟨xsd "string", stringClass, rfl, rfl, rfl⟩
end NonVacuity

/-! ## C14 -/

private theorem subject_bag_mbp {env d r w x w'} (h : designatorEval env .subject d (some r) w = (.ok x, w')) :
    ∃ b, x = .bag b ∧ collectSubjects r d
      { elementType := classLookup env.classMap d.dataType, items := [] } r.data.subjects w = (.ok b, w') ∧
      (d.mustBePresent = true → b.items ≠ []) := by
  simp only [designatorEval] at h
  rw [run_bind_eq_ok] at h
  obtain ⟨b, w1, h1, h2⟩ := h
  simp only [run_ofExcept, Prod.mk.injEq] at h2
  obtain ⟨h2, rfl⟩ := h2
  unfold checkPresent at h2
  split at h2
  · cases h2
  · rename_i hn
    injection h2 with h2
    refine ⟨b, h2.symm, h1, ?_⟩
    intro hm he
    simp [hm, he] at hn

/-- C14: a designator with MustBePresent never returns an empty bag, whatever the PIP does. -/
theorem C14_present (env : Env) (cat : Category) (d : Designator) (ctx : Ctx) (w w' : World) (b : Bag)
    (hm : d.mustBePresent = true) (h : designatorEval env cat d ctx w = (.ok (.bag b), w')) :
    b.items ≠ [] := by
  cases ctx with
  | none => simp [designatorEval] at h
  | some r =>
    by_cases hc : cat = .subject
    · subst hc
      obtain ⟨b', hb, _, hne⟩ := subject_bag_mbp h
      injection hb with hb; subst hb; exact hne hm
    · cases hp : attributesOf cat r.data with
      | none =>
        rw [(C13_otherwise env cat d r w).2.1 hp] at h; simp at h
      | some attrs =>
        rw [designator_noPip env cat d r w attrs (fun h => absurd h hc) hp] at h
        simp only [Prod.mk.injEq] at h
        have h := h.1
        split at h
        · unfold checkPresent at h
          split at h
          · cases h
          · rename_i hn
            simp only [Except.ok.injEq, PyVal.bag.injEq] at h
            subst h
            intro he; simp [hm, he] at hn
        · cases h

/-- C14: MissingAttributeError is raised exactly for MustBePresent and no designated value
(no PIP). -/
theorem C14_missing_iff (env : Env) (cat : Category) (d : Designator) (r : Request) (w : World)
    (hpip : cat = .subject → r.ctxHandler = none) :
    (designatorEval env cat d (some r) w).1 = .error .missingAttributeError ↔
      d.mustBePresent = true ∧ ∃ attrs, attributesOf cat r.data = some attrs ∧ designated d attrs = [] := by
  cases hp : attributesOf cat r.data with
  | none => rw [(C13_otherwise env cat d r w).2.1 hp]; simp
  | some attrs =>
    by_cases hty : ∀ v ∈ designated d attrs, WellTyped env.classMap d.dataType v
    · rw [C13_designator_exact env cat d r w attrs hpip hp hty]
      unfold answer
      simp only [Option.some.injEq, exists_eq_left']
      split
      · rename_i h; simp [h.1, h.2]
      · rename_i h
        simp only [reduceCtorEq, false_iff, not_and]
        intro h1 h2; exact h ⟨h2, h1⟩
    · have hty' : ∃ v ∈ designated d attrs, ¬ WellTyped env.classMap d.dataType v := by
        simpa [Classical.not_forall] using hty
      rw [(C13_otherwise env cat d r w).1 attrs hpip hp hty']
      obtain ⟨v, hv, _⟩ := hty'
      simp only [Except.error.injEq, reduceCtorEq, Option.some.injEq, exists_eq_left', false_iff, not_and]
      intro _ he; rw [he] at hv; cases hv

private theorem dunderEq_error {a b : AttrVal} {e : Exc} (h : a.dunderEq b = .error e) : e = .typeError := by
  unfold AttrVal.dunderEq at h
  split at h
  · cases h
  · injection h with h; exact h.symm

private theorem pyEq_error {a b : AttrVal} {e : Exc} (h : a.pyEq b = .error e) : e = .typeError := by
  unfold AttrVal.pyEq at h
  split at h
  · exact dunderEq_error h
  · exact dunderEq_error h

private theorem collectSubjects_error {r : Request} {d : Designator} {b : Bag} {ss : List CtxSubject}
    {w w' : World} {e : Exc} (h : collectSubjects r d b ss w = (.error e, w')) :
    e = .typeError ∨ ∃ pip, r.ctxHandler = some pip ∧ ∃ log q, pip log q = .error e := by
  induction ss generalizing b w with
  | nil => simp [collectSubjects] at h
  | cons s ss ih =>
    simp only [collectSubjects] at h
    rw [run_bind_eq_error] at h
    rcases h with h | ⟨b1, w1, h1, h⟩
    · simp only [run_ofExcept, Prod.mk.injEq] at h
      have h := h.1
      rw [collectAttrs_eq] at h
      split at h
      · cases h
      · injection h with h; exact .inl h.symm
    · cases hp : r.ctxHandler with
      | none =>
        simp only [hp] at h
        simpa [hp] using ih h
      | some pip =>
        simp only [hp] at h
        rw [run_bind_eq_error] at h
        rcases h with h | ⟨ans, w2, h2, h⟩
        · simp only [pipQuery, Prod.mk.injEq] at h
          exact .inr ⟨pip, rfl, _, _, h.1⟩
        · rw [run_bind_eq_error] at h
          rcases h with h | ⟨b2, w3, h3, h⟩
          · left
            simp only [run_ofExcept, Prod.mk.injEq] at h
            have h := h.1
            unfold addPip at h
            split at h
            · cases h
            · split at h
              · unfold Bag.extend at h
                split at h
                · cases h
                · rename_i he; injection h with h; subst h; exact checkItems_error he
              · split at h
                · unfold Bag.extend at h
                  split at h
                  · cases h
                  · rename_i he; injection h with h; subst h; exact checkItems_error he
                · rename_i hw
                  injection h with h; subst h
                  have weed : ∀ {known xs e}, weedOut known xs = .error e → e = .typeError := by
                    intro known xs
                    induction xs with
                    | nil => intro e h; simp [weedOut] at h
                    | cons x xs ihx =>
                      intro e h
                      have mem : ∀ {ys e}, memBag x ys = .error e → e = .typeError := by
                        intro ys
                        induction ys with
                        | nil => intro e h; simp [memBag] at h
                        | cons y ys ihy =>
                          intro e h
                          unfold memBag at h
                          split at h
                          · split at h
                            · cases h
                            · exact ihy h
                            · rename_i he
                              injection h with h; subst h
                              exact pyEq_error he
                          · injection h with h; exact h.symm
                      unfold weedOut at h
                      split at h
                      · rename_i he; injection h with h; subst h; exact mem he
                      · exact ihx h
                      · split at h
                        · cases h
                        · rename_i he; injection h with h; subst h; exact ihx he
                  exact weed hw
          · simpa [hp] using ih h

/-- C14: without MustBePresent, a designator never raises MissingAttributeError on its own: with a
PIP, only if the PIP itself raised it. -/
theorem C14_not_required (env : Env) (cat : Category) (d : Designator) (r : Request) (w : World)
    (hm : d.mustBePresent = false)
    (h : (designatorEval env cat d (some r) w).1 = .error .missingAttributeError) :
    ∃ pip, r.ctxHandler = some pip ∧ ∃ log q, pip log q = .error .missingAttributeError := by
  cases hp : r.ctxHandler with
  | none =>
    have := (C14_missing_iff env cat d r w (fun _ => hp)).1 h
    rw [hm] at this; simp at this
  | some pip =>
    by_cases hc : cat = .subject
    · subst hc
      rcases hd : designatorEval env .subject d (some r) w with ⟨x, w'⟩
      rw [hd] at h
      simp only at h; subst h
      simp only [designatorEval] at hd
      rw [run_bind_eq_error] at hd
      rcases hd with hd | ⟨b, w1, _, hd⟩
      · rcases collectSubjects_error hd with h | ⟨p, h1, h2⟩
        · cases h
        · rw [hp] at h1; injection h1 with h1; subst h1; exact ⟨pip, rfl, h2⟩
      · simp [checkPresent, hm] at hd
    · have := (C14_missing_iff env cat d r w (fun h => absurd h hc)).1 h
      rw [hm] at this; simp at this

/-- C14 for selectors: with the selected values `vs`, MissingAttributeError iff MustBePresent and
`vs` is empty; otherwise the bag of the values. -/
theorem C14_selector (env : Env) (s : Selector) (r : Request) (xp : XPathEngine) (dt : String) (c : AVClass)
    (texts : List (Option Native)) (vs : List AttrVal)
    (hx : r.attributeSelector = some xp) (hd : s.dataType = some dt) (hc : env.classMap.lookup dt = some c)
    (ht : xp s.path = .ok texts) (hv : selectValues c dt texts = .ok vs) :
    selectorEval env s (some r) =
      if texts = [] ∧ s.mustBePresent = true then .error .missingAttributeError
      else .ok (.bag { elementType := some c, items := vs }) := by
  have hlen : vs.length = texts.length := by
    clear ht
    induction texts generalizing vs with
    | nil => simp [selectValues] at hv; subst hv; rfl
    | cons t ts ih =>
      rw [selectValues] at hv
      split at hv
      · cases hv
      · split at hv
        · rename_i vs' hvs'
          injection hv with hv; subst hv
          simp [ih vs' hvs']
        · cases hv
  simp only [selectorEval, hx, hd, classLookup, hc, ht, hv, checkPresent]
  cases texts <;> cases vs <;> cases s.mustBePresent <;> simp at hlen ⊢

section NonVacuity
open Samples
example : (designatorEval env .subject missingDes ctx w0).1 = .error .missingAttributeError := rfl
example : missingDes.mustBePresent = true ∧ ∃ attrs, attributesOf .subject req.data = some attrs ∧
    designated missingDes attrs = [] := ⟨rfl, _, rfl, by decide +kernel⟩
end NonVacuity

/-! ## C15 -/

/-- A bag of the class registered for `dataType`, all of whose items are instances of it. -/
def HomogeneousFor (m : List (String × AVClass)) (dataType : Option String) (b : Bag) : Prop :=
  b.elementType = classLookup m dataType ∧ ∀ v ∈ b.items, WellTyped m dataType v

private theorem collectSubjects_homog {m : List (String × AVClass)} {r : Request} {d : Designator}
    {b b' : Bag} {ss : List CtxSubject} {w w' : World}
    (hb : HomogeneousFor m d.dataType b) (h : collectSubjects r d b ss w = (.ok b', w')) :
    HomogeneousFor m d.dataType b' := by
  induction ss generalizing b w with
  | nil => simp [collectSubjects] at h; rw [← h.1]; exact hb
  | cons s ss ih =>
    simp only [collectSubjects] at h
    rw [run_bind_eq_ok] at h
    obtain ⟨b1, w1, h1, h⟩ := h
    have hb1 : HomogeneousFor m d.dataType b1 := by
      simp only [run_ofExcept, Prod.mk.injEq] at h1
      have h1 := h1.1
      rw [collectAttrs_eq] at h1
      split at h1
      · rename_i hall
        injection h1 with h1; subst h1
        refine ⟨hb.1, ?_⟩
        intro v hv
        rcases List.mem_append.1 hv with hv | hv
        · exact hb.2 v hv
        · rw [hb.1] at hall
          exact (okFor_wellTyped _ _ _).1 (List.all_eq_true.1 hall v hv)
      · cases h1
    cases hp : r.ctxHandler with
    | none => simp only [hp] at h; exact ih hb1 h
    | some pip =>
      simp only [hp] at h
      rw [run_bind_eq_ok] at h
      obtain ⟨ans, w2, h2, h⟩ := h
      rw [run_bind_eq_ok] at h
      obtain ⟨b2, w3, h3, h⟩ := h
      simp only [run_ofExcept, Prod.mk.injEq] at h3
      obtain ⟨rfl, hok⟩ := addPip_ok h3.1
      refine ih (b := { b1 with items := b1.items ++ pipAdds b1.items ans }) ⟨hb1.1, ?_⟩ h
      intro v hv
      rcases List.mem_append.1 hv with hv | hv
      · exact hb1.2 v hv
      · have := hok v hv
        rw [hb1.1] at this
        exact (okFor_wellTyped _ _ _).1 this

/-- C15 for designators: whatever the PIP answers, the bag is homogeneous. -/
theorem C15_designator (env : Env) (cat : Category) (d : Designator) (ctx : Ctx) (w w' : World) (x : PyVal)
    (h : designatorEval env cat d ctx w = (.ok x, w')) :
    ∃ b, x = .bag b ∧ HomogeneousFor env.classMap d.dataType b := by
  cases ctx with
  | none => simp [designatorEval] at h
  | some r =>
    by_cases hc : cat = .subject
    · subst hc
      obtain ⟨b, rfl, h1, _⟩ := subject_bag_mbp h
      exact ⟨b, rfl, collectSubjects_homog ⟨rfl, by simp⟩ h1⟩
    · cases hp : attributesOf cat r.data with
      | none => rw [(C13_otherwise env cat d r w).2.1 hp] at h; simp at h
      | some attrs =>
        by_cases hty : ∀ v ∈ designated d attrs, WellTyped env.classMap d.dataType v
        · rw [C13_designator_exact env cat d r w attrs (fun h => absurd h hc) hp hty] at h
          simp only [Prod.mk.injEq] at h
          have h := h.1
          unfold answer at h
          split at h
          · cases h
          · injection h with h; subst h
            exact ⟨_, rfl, rfl, hty⟩
        · have hty' : ∃ v ∈ designated d attrs, ¬ WellTyped env.classMap d.dataType v := by
            simpa [Classical.not_forall] using hty
          rw [(C13_otherwise env cat d r w).1 attrs (fun h => absurd h hc) hp hty'] at h
          simp at h

private theorem selectValues_inst {c : AVClass} {dt : String} {texts vs}
    (h : selectValues c dt texts = .ok vs) : ∀ v ∈ vs, v.cls = c := by
  induction texts generalizing vs with
  | nil => simp [selectValues] at h; subst h; simp
  | cons t ts ih =>
    rw [selectValues] at h
    split at h
    · cases h
    · rename_i v hv
      split at h
      · rename_i vs' hvs'
        injection h with h; subst h
        intro x hx
        rcases List.mem_cons.1 hx with rfl | hx
        · unfold AttrVal.setValue at hv
          split at hv
          · split at hv
            · injection hv with hv; subst hv; rfl
            · cases hv
          · cases hv
        · exact ih hvs' x hx
      · cases h

/-- C15 for selectors. -/
theorem C15_selector (env : Env) (s : Selector) (ctx : Ctx) (x : PyVal)
    (h : selectorEval env s ctx = .ok x) :
    ∃ b, x = .bag b ∧ HomogeneousFor env.classMap s.dataType b := by
  unfold selectorEval at h
  split at h
  · cases h
  · split at h
    · cases h
    · split at h
      · cases h
      · rename_i dt hd
        split at h
        · cases h
        · rename_i c hc
          split at h
          · cases h
          · split at h
            · cases h
            · rename_i vs hvs
              unfold checkPresent at h
              split at h
              · cases h
              · injection h with h; subst h
                refine ⟨_, rfl, ?_, ?_⟩
                · rw [hd]; exact hc.symm
                · intro v hv
                  refine ⟨dt, c, hd, hc, ?_⟩
                  rw [AttrVal.isInst, selectValues_inst hvs v hv]
                  simp [AVClass.isSub]

/-- C15 for the bag functions: a `<type>-bag` call returns a bag declared with the function's
type, holding exactly its arguments, all instances of that type. -/
theorem C15_bag_function (env : Env) (t : AVClass) (args : List PyVal) (w w' : World) (x : PyVal)
    (h : (Func.bag t).evaluate env args w = (.ok x, w')) :
    ∃ b, x = .bag b ∧ b.elementType = some t ∧ args = b.items.map .av ∧
      ∀ v ∈ b.items, v.isInst t = true := by
  simp only [Func.evaluate, run_ofExcept, Prod.mk.injEq] at h
  have h := h.1
  unfold bagFn at h
  split at h
  · rename_i vs hvs
    injection h with h; subst h
    obtain ⟨h1, h2⟩ := checkItems_ok hvs
    exact ⟨_, rfl, rfl, h1, h2⟩
  · cases h

section NonVacuity
open Samples
/-- A PIP that answers with a mixture of objects: rejected, as it must be. -/
example : (designatorEval env .subject roleDes
    (some { req with ctxHandler := some fun _ _ => .ok (.iter ⟨false, [.av (str "pip"), .none]⟩) }) w0).1
    = .error .typeError := rfl
example : (designatorEval env .subject roleDes
    (some { req with ctxHandler := some fun _ _ => .ok (.iter ⟨false, [.av (str "pip"), .av (str "admin")]⟩) }) w0).1
    = .ok (.bag ⟨some stringClass, [str "admin", str "staff", str "pip"]⟩) := rfl
end NonVacuity

/-! ## C16 -/

/-- The world after `n` further PIP queries. -/
def World.queried (w : World) (q : PipQuery) (n : Nat) : World :=
  { w with pipLog := w.pipLog ++ List.replicate n q }

private theorem queried_zero (w : World) (q : PipQuery) : w.queried q 0 = w := by
  simp [World.queried]

private theorem queried_succ (w : World) (q : PipQuery) (n : Nat) :
    ({ w with pipLog := w.pipLog ++ [q] } : World).queried q n = w.queried q (n + 1) := by
  simp [World.queried, List.replicate_succ]

private theorem collectSubjects_queries (r : Request) (pip : Pip) (d : Designator) (b : Bag)
    (ss : List CtxSubject) (w : World) (hp : r.ctxHandler = some pip) :
    ∃ n, n ≤ ss.length ∧ (collectSubjects r d b ss w).2 = w.queried ⟨r.data, d⟩ n ∧
      (∀ b', (collectSubjects r d b ss w).1 = .ok b' → n = ss.length) := by
  induction ss generalizing b w with
  | nil => exact ⟨0, by simp, by simp [collectSubjects, queried_zero], by simp⟩
  | cons s ss ih =>
    simp only [collectSubjects, hp]
    cases h1 : collectAttrs d b s.attributes with
    | error e =>
      refine ⟨0, by simp, ?_, ?_⟩ <;> simp [run_bind, queried_zero]
    | ok b1 =>
      cases h2 : pip w.pipLog ⟨r.data, d⟩ with
      | error e =>
        refine ⟨1, by simp, ?_, ?_⟩ <;> simp [run_bind, pipQuery, h2, World.queried]
      | ok ans =>
        cases h3 : addPip b1 ans with
        | error e =>
          refine ⟨1, by simp, ?_, ?_⟩ <;> simp [run_bind, pipQuery, h2, h3, World.queried]
        | ok b2 =>
          obtain ⟨n, hn, hw, hok⟩ := ih b2 { w with pipLog := w.pipLog ++ [⟨r.data, d⟩] }
          refine ⟨n + 1, by simp; omega, ?_, ?_⟩
          · simp only [run_bind, run_ofExcept, pipQuery, h2, h3]
            rw [hw, queried_succ]
          · intro b' hb'
            simp only [run_bind, run_ofExcept, pipQuery, h2, h3] at hb'
            simp [hok b' hb']

/-- C16: a subject designator queries the PIP once per subject; every query carries the request
and the designator; nothing else in the process changes; after a failure at the n-th query no
further query is made. -/
theorem C16_one_query_per_subject (env : Env) (d : Designator) (r : Request) (pip : Pip) (w : World)
    (hp : r.ctxHandler = some pip) :
    ∃ n, n ≤ r.data.subjects.length ∧
      (designatorEval env .subject d (some r) w).2 = w.queried ⟨r.data, d⟩ n ∧
      (∀ x, (designatorEval env .subject d (some r) w).1 = .ok x → n = r.data.subjects.length) ∧
      ((designatorEval env .subject d (some r) w).1 = .error .missingAttributeError →
        (∀ log q, pip log q ≠ .error .missingAttributeError) → n = r.data.subjects.length) := by
  let b0 : Bag := { elementType := classLookup env.classMap d.dataType, items := [] }
  obtain ⟨n, hn, hw, hok⟩ := collectSubjects_queries r pip d b0 r.data.subjects w hp
  refine ⟨n, hn, ?_, ?_, ?_⟩
  · rw [← hw]
    simp only [designatorEval, run_bind, b0]
    split <;> (rename_i h; rw [h]; try rfl)
  · intro x hx
    rcases hd : designatorEval env .subject d (some r) w with ⟨y, w'⟩
    rw [hd] at hx
    simp only at hx; subst hx
    obtain ⟨b, _, h1, _⟩ := subject_bag_mbp hd
    exact hok b (by rw [h1])
  · intro hx hno
    simp only [designatorEval, run_bind] at hx
    rcases hc : collectSubjects r d b0 r.data.subjects w with ⟨y, w'⟩
    cases y with
    | ok b => exact hok b (by rw [hc])
    | error e =>
      exfalso
      simp only [b0] at hc
      rw [hc] at hx
      simp only [Except.error.injEq] at hx
      subst hx
      rcases collectSubjects_error hc with h | ⟨p, h1, log, q, h2⟩
      · cases h
      · rw [hp] at h1; injection h1 with h1; subst h1; exact hno log q h2

/-- C16: no query without a context handler, none by the other designators, and none by a
subject designator when the request has no subjects. -/
theorem C16_no_query (env : Env) (cat : Category) (d : Designator) (ctx : Ctx) (w : World)
    (h : cat ≠ .subject ∨ ∀ r, ctx = some r → r.ctxHandler = none ∨ r.data.subjects = []) :
    (designatorEval env cat d ctx w).2 = w := by
  cases ctx with
  | none => cases cat <;> rfl
  | some r =>
    by_cases hc : cat = .subject → r.ctxHandler = none
    · cases hp : attributesOf cat r.data with
      | none => rw [(C13_otherwise env cat d r w).2.1 hp]
      | some attrs => rw [designator_noPip env cat d r w attrs hc hp]
    · simp only [Classical.not_imp] at hc
      obtain ⟨rfl, hc⟩ := hc
      rcases h with h | h
      · exact absurd rfl h
      · rcases h r rfl with h | h
        · exact absurd h hc
        · simp [designatorEval, h, collectSubjects, run_bind]

/-- C16, ordering: a subject's own attributes are examined before the PIP is asked about it: if
the first subject's own values are mislabelled no query is made at all. -/
theorem C16_own_attributes_first (env : Env) (d : Designator) (r : Request) (w : World) (s : CtxSubject)
    (ss : List CtxSubject) (hs : r.data.subjects = s :: ss)
    (hbad : ∃ v ∈ designated d s.attributes, ¬ WellTyped env.classMap d.dataType v) :
    designatorEval env .subject d (some r) w = (.error .typeError, w) := by
  obtain ⟨v, hv, hn⟩ := hbad
  have : (designated d s.attributes).all (okFor (classLookup env.classMap d.dataType)) = false := by
    rw [Bool.eq_false_iff]
    intro h
    exact hn ((okFor_wellTyped _ _ _).1 (List.all_eq_true.1 h v hv))
  simp [designatorEval, hs, collectSubjects, run_bind, collectAttrs_eq, this]

section NonVacuity
open Samples
def twoSubjects : Request :=
  { req with
    data := { data with subjects := [{ category := none, attributes := [roleAttr ["admin"]] },
                                     { category := none, attributes := [] }] }
    ctxHandler := some fun log _ => .ok (.iter ⟨false, [.av (str (if log.isEmpty then "first" else "second"))]⟩) }
example : designatorEval env .subject roleDes (some twoSubjects) w0 =
    (.ok (.bag ⟨some stringClass, [str "admin", str "first", str "second"]⟩),
     w0.queried ⟨twoSubjects.data, roleDes⟩ 2) := rfl
end NonVacuity

/-! ## C17 and C57 -/

private theorem collectSubjects_values {r : Request} {pip : Pip} {d : Designator} {b b' : Bag}
    {ss : List CtxSubject} {w w' : World} (hp : r.ctxHandler = some pip)
    (h : collectSubjects r d b ss w = (.ok b', w')) :
    SubjectValues r.data pip d ss w.pipLog b.items b'.items w'.pipLog := by
  induction ss generalizing b w with
  | nil => simp [collectSubjects] at h; rw [← h.1, ← h.2]; exact .nil _ _
  | cons s ss ih =>
    simp only [collectSubjects] at h
    rw [run_bind_eq_ok] at h
    obtain ⟨b1, w1, h1, h⟩ := h
    simp only [run_ofExcept, Prod.mk.injEq] at h1
    obtain ⟨h1, rfl⟩ := h1
    rw [collectAttrs_eq] at h1
    split at h1
    · injection h1 with h1; subst h1
      simp only [hp] at h
      rw [run_bind_eq_ok] at h
      obtain ⟨ans, w2, h2, h⟩ := h
      simp only [pipQuery, Prod.mk.injEq] at h2
      obtain ⟨h2, rfl⟩ := h2
      rw [run_bind_eq_ok] at h
      obtain ⟨b2, w3, h3, h⟩ := h
      simp only [run_ofExcept, Prod.mk.injEq] at h3
      obtain ⟨h3, rfl⟩ := h3
      obtain ⟨rfl, _⟩ := addPip_ok h3
      exact .cons h2 (ih h)
    · cases h1

/-- With a PIP, a subject designator's bag is: for each subject in turn its designated values,
then the PIP's new values (`pipAdds`). -/
theorem C17_subject_values (env : Env) (d : Designator) (r : Request) (pip : Pip) (w w' : World) (b : Bag)
    (hp : r.ctxHandler = some pip)
    (h : designatorEval env .subject d (some r) w = (.ok (.bag b), w')) :
    SubjectValues r.data pip d r.data.subjects w.pipLog [] b.items w'.pipLog := by
  obtain ⟨b', hb, h1, _⟩ := subject_bag_mbp h
  injection hb with hb; subst hb
  exact collectSubjects_values hp h1

/-- C17 is violated: a PIP that answers the same value twice puts it in the bag twice. -/
theorem C17_violated :
    ∃ (env : Env) (d : Designator) (r : Request) (pip : Pip) (w w' : World) (b : Bag) (v : AttrVal),
      r.ctxHandler = some pip ∧ designatorEval env .subject d (some r) w = (.ok (.bag b), w') ∧
      designated d (r.data.subjects.flatMap (·.attributes)) = [] ∧
      v.pyEq v = .ok true ∧ b.items = [v, v] := by
  let v := Samples.str "x"
  let pip : Pip := fun _ _ => .ok (.iter ⟨false, [.av v, .av v]⟩)
  let r : Request := { Samples.req with
    data := { Samples.data with subjects := [{ category := none, attributes := [] }] }, ctxHandler := some pip }
  exact ⟨Samples.env, Samples.roleDes, r, pip, Samples.w0, _, _, v, rfl, rfl, rfl, rfl, rfl⟩

/-- No value of the list equals an earlier one. -/
def NoDup (vs : List AttrVal) : Prop := vs.Pairwise fun a b => a.pyEq b ≠ .ok true

/-- C17, partial: provided no single PIP answer contains two equal values and the values the
subjects carry themselves are distinct from each other and from what is already in the bag, the
bag contains no two equal values. (Missing: answers with internal duplicates, see `C17_violated`;
subjects repeating a value keep it, as C13 requires.) -/
theorem C17_partial (r : ReqData) (pip : Pip) (d : Designator) (ss : List CtxSubject) (log log' : List PipQuery)
    (vs vs' : List AttrVal)
    (h : SubjectValues r pip d ss log vs vs' log')
    (hone : ∀ log ans it, pip log ⟨r, d⟩ = .ok ans → ans = .iter it → NoDup (it.items.filterMap avOf))
    (hown : ∀ s ∈ ss, designated d s.attributes = [])
    (h0 : NoDup vs) : NoDup vs' := by
  induction h with
  | nil => exact h0
  | @cons s ss log vs ans vs' log' asked _ ih =>
    refine ih (fun s hs => hown s (by simp [hs])) ?_
    rw [hown s (by simp), List.append_nil]
    unfold NoDup
    rw [List.pairwise_append]
    refine ⟨h0, ?_, ?_⟩
    · cases ans with
      | none => simp [pipAdds]
      | iter it =>
        have hn := hone _ _ it asked rfl
        unfold pipAdds
        simp only
        split
        · split
          · simp
          · exact hn
        · exact hn.filter _
    · intro a ha v hv
      cases ans with
      | none => simp [pipAdds] at hv
      | iter it =>
        unfold pipAdds at hv
        simp only at hv
        split at hv
        · rename_i he; rw [he] at ha; cases ha
        · simp only [List.mem_filter, decide_eq_true_eq] at hv
          intro heq
          exact hv.2 ⟨a, ha, heq⟩

/-- C17, one query: a value that equals a known one is never added, and every other value of a
re-iterable answer is added. -/
theorem C17_added_iff (known : List AttrVal) (it : PyIter) (v : AttrVal)
    (hk : known ≠ [] ∨ it.oneShot = false) :
    v ∈ pipAdds known (.iter it) ↔ .av v ∈ it.items ∧ ¬ KnownIn known v := by
  have hmem : v ∈ it.items.filterMap avOf ↔ .av v ∈ it.items := by
    simp only [List.mem_filterMap]
    constructor
    · rintro ⟨x, hx, he⟩
      cases x <;> simp [avOf] at he
      subst he; exact hx
    · intro h; exact ⟨_, h, rfl⟩
  unfold pipAdds
  simp only
  split
  · rename_i he
    have h1 : it.oneShot = false := by
      rcases hk with h | h
      · exact absurd he h
      · exact h
    subst he
    simp [h1, hmem, KnownIn]
  · simp [List.mem_filter, hmem]

/-- C57 is violated: a PIP that answers with a generator and a bag that is still empty: all the
values are lost, and with MustBePresent the designator fails. -/
theorem C57_violated :
    ∃ (env : Env) (d : Designator) (r : Request) (pip : Pip) (w w' : World) (it : PyIter) (v : AttrVal),
      r.ctxHandler = some pip ∧ (∀ log q, pip log q = .ok (.iter it)) ∧ it.items = [.av v] ∧
      WellTyped env.classMap d.dataType v ∧ some v.dataType = d.dataType ∧
      r.data.subjects.length = 1 ∧
      designatorEval env .subject d (some r) w = (.error .missingAttributeError, w') := by
  let v := Samples.str "x"
  let it : PyIter := ⟨true, [.av v]⟩
  let pip : Pip := fun _ _ => .ok (.iter it)
  let r : Request := { Samples.req with
    data := { Samples.data with subjects := [{ category := none, attributes := [] }] }, ctxHandler := some pip }
  exact ⟨Samples.env, Samples.roleDes, r, pip, Samples.w0, _, it, v, rfl, fun _ _ => rfl, rfl,
    ⟨xsd "string", stringClass, rfl, rfl, rfl⟩, rfl, rfl, rfl⟩

/-- C57, partial: if the PIP answers with re-iterable collections, every value of the answer to the
first query is in the resulting bag or equals a value that is.
(Missing: one-shot iterators, see `C57_violated`.) -/
theorem C57_partial (r : ReqData) (pip : Pip) (d : Designator) (s : CtxSubject) (ss : List CtxSubject)
    (log log' : List PipQuery) (vs vs' : List AttrVal) (it : PyIter) (v : AttrVal)
    (h : SubjectValues r pip d (s :: ss) log vs vs' log')
    (hans : pip log ⟨r, d⟩ = .ok (.iter it)) (hre : it.oneShot = false) (hv : .av v ∈ it.items) :
    v ∈ vs' ∨ KnownIn vs' v := by
  have mono : ∀ {ss log vs vs' log'}, SubjectValues r pip d ss log vs vs' log' → ∀ x ∈ vs, x ∈ vs' := by
    intro ss log vs vs' log' h
    induction h with
    | nil => exact fun _ h => h
    | cons _ _ ih => exact fun x hx => ih x (by simp [hx])
  cases h with
  | cons asked rest =>
    rw [hans] at asked
    injection asked with asked; subst asked
    by_cases hk : KnownIn (vs ++ designated d s.attributes) v
    · obtain ⟨u, hu, he⟩ := hk
      exact .inr ⟨u, mono rest u (by simp only [List.mem_append] at hu ⊢; exact .inl hu), he⟩
    · have : v ∈ pipAdds (vs ++ designated d s.attributes) (.iter it) :=
        (C17_added_iff _ it v (.inr hre)).2 ⟨hv, hk⟩
      exact .inl (mono rest v (by simp only [List.mem_append]; exact .inr this))

section NonVacuity
open Samples
example : SubjectValues twoSubjects.data (fun log _ => .ok (.iter ⟨false,
      [.av (str (if log.isEmpty then "first" else "second"))]⟩)) roleDes
      [{ category := none, attributes := [] }, { category := none, attributes := [] }]
      [] [] [str "first", str "second"]
      [⟨twoSubjects.data, roleDes⟩, ⟨twoSubjects.data, roleDes⟩] := by
  refine .cons (ans := .iter ⟨false, [.av (str "first")]⟩) rfl ?_
  have h1 : pipAdds ([] ++ designated roleDes []) (.iter ⟨false, [.av (str "first")]⟩) = [str "first"] := by decide +kernel
  rw [h1]
  refine .cons (ans := .iter ⟨false, [.av (str "second")]⟩) rfl ?_
  have h2 : pipAdds ([] ++ designated roleDes [] ++ [str "first"] ++ designated roleDes [])
    (.iter ⟨false, [.av (str "second")]⟩) = [str "second"] := by decide +kernel
  rw [h2]
  exact .nil _ _
end NonVacuity

/-! ## C18 -/

private theorem evaluateList_runs {env ctx args w vs w'}
    (h : Runs (args.map (Expr.evaluate env ctx)) w vs w') :
    Expr.evaluateList env ctx args w = (.ok vs, w') := by
  induction args generalizing w vs with
  | nil => cases h; rw [Expr.evaluateList]; rfl
  | cons a as ih =>
    cases h with
    | cons hc hr =>
      rw [Expr.evaluateList]
      simp only [run_bind_ok hc, run_bind_ok (ih hr)]; rfl

private theorem evaluateList_fails {env ctx args w e w'}
    (h : Fails (args.map (Expr.evaluate env ctx)) w e w') :
    Expr.evaluateList env ctx args w = (.error e, w') := by
  induction args generalizing w with
  | nil => cases h
  | cons a as ih =>
    rw [Expr.evaluateList]
    cases h with
    | head hc => simp only [run_bind_error hc]
    | tail hc hr => simp only [run_bind_ok hc, run_bind_error (ih hr)]

/-- C18: arguments left to right, once each, then the function once, on exactly the results. -/
theorem C18_apply (env : Env) (ctx : Ctx) (f : Func) (args : List Expr) (w w1 : World) (vs : List PyVal)
    (h : Runs (args.map (Expr.evaluate env ctx)) w vs w1) :
    (Expr.apply (some f) args).evaluate env ctx w = f.evaluate env vs w1 := by
  rw [Expr.evaluate]
  simp only [run_bind_ok (evaluateList_runs h)]

/-- C18: if an argument fails, that failure is the result and nothing after it is evaluated. -/
theorem C18_apply_argument_fails (env : Env) (ctx : Ctx) (f : Option Func) (args : List Expr)
    (w w1 : World) (e : Exc) (h : Fails (args.map (Expr.evaluate env ctx)) w e w1) :
    (Expr.apply f args).evaluate env ctx w = (.error e, w1) := by
  rw [Expr.evaluate]
  simp only [run_bind_error (evaluateList_fails h)]

section NonVacuity
open Samples
example : Runs ([Expr.apply (some (.oneAndOnly stringClass)) [.designator .action actDes], .value (str "a")].map
    (Expr.evaluate env ctx)) w0 [.av (str "read"), .av (str "a")] w0 :=
  .cons (by rfl) (.cons (by rfl) (.nil _))
example : Fails ([Expr.value (str "a"), .designator .subject missingDes, .designator .action actDes].map
    (Expr.evaluate env ctx)) w0 .missingAttributeError w0 :=
  .tail (by rfl) (.head (by rfl))
end NonVacuity

/-! ## C55 -/

private theorem setValue_eq (v : AttrVal) (n : Native) (h : n.isInstance v.cls.native = true) :
    v.setValue (some n) = .ok { v with value := some n } := by
  simp [AttrVal.setValue, h]

/-- C55: one value per selected text, in order, of the selector's data type. -/
theorem C55_selector_values (env : Env) (s : Selector) (r : Request) (xp : XPathEngine) (dt : String)
    (c : AVClass) (ns : List Native)
    (hx : r.attributeSelector = some xp) (hd : s.dataType = some dt) (hc : env.classMap.lookup dt = some c)
    (ht : xp s.path = .ok (ns.map some)) (hn : ∀ n ∈ ns, n.isInstance c.native = true) :
    selectorEval env s (some r) =
      if ns = [] ∧ s.mustBePresent = true then .error .missingAttributeError
      else .ok (.bag { elementType := some c
                       items := ns.map fun n => { cls := c, dataType := dt, value := some n } }) := by
  have hv : selectValues c dt (ns.map some)
      = .ok (ns.map fun n => { cls := c, dataType := dt, value := some n }) := by
    clear ht
    induction ns with
    | nil => rfl
    | cons n ns ih =>
      rw [List.map_cons, selectValues, setValue_eq _ _ (by exact hn n (by simp)),
        ih (fun m hm => hn m (by simp [hm]))]
      rfl
  rw [C14_selector env s r xp dt c _ _ hx hd hc ht hv]
  simp

/-- C55: everything else fails. -/
theorem C55_selector_fails (env : Env) (s : Selector) (r : Request) :
    (r.attributeSelector = none → selectorEval env s (some r) = .error .valueError) ∧
    (∀ xp, r.attributeSelector = some xp → classLookup env.classMap s.dataType = none →
      selectorEval env s (some r) = .error .xmlParseError) ∧
    (∀ xp dt c texts, r.attributeSelector = some xp → s.dataType = some dt → env.classMap.lookup dt = some c →
      xp s.path = .ok texts → (∃ t ∈ texts, ∀ n, t = some n → n.isInstance c.native = false) →
      selectorEval env s (some r) = .error .typeError) ∧
    (∀ xp dt c e, r.attributeSelector = some xp → s.dataType = some dt → env.classMap.lookup dt = some c →
      xp s.path = .error e → selectorEval env s (some r) = .error e) := by
  refine ⟨?_, ?_, ?_, ?_⟩
  · intro h; simp [selectorEval, h]
  · intro xp h1 h2
    unfold selectorEval
    cases hd : s.dataType with
    | none => simp [h1]
    | some dt => rw [hd] at h2; simp [h1, h2]
  · intro xp dt c texts h1 h2 h3 h4 hbad
    have hv : selectValues c dt texts = .error .typeError := by
      clear h4
      induction texts with
      | nil => obtain ⟨t, ht, _⟩ := hbad; cases ht
      | cons t ts ih =>
        rw [selectValues]
        obtain ⟨u, hu, hn⟩ := hbad
        rcases List.mem_cons.1 hu with rfl | hu
        · cases u with
          | none => rfl
          | some n =>
            have : ({ c.new with dataType := dt } : AttrVal).setValue (some n) = .error .typeError := by
              have := hn n rfl
              simp [AttrVal.setValue, AVClass.new, this]
            rw [this]
        · rw [ih ⟨u, hu, hn⟩]
          cases h : ({ c.new with dataType := dt } : AttrVal).setValue t with
          | ok v => rfl
          | error e =>
            unfold AttrVal.setValue at h
            split at h
            · split at h
              · cases h
              · injection h with h; rw [← h]
            · injection h with h; rw [← h]
    simp [selectorEval, h1, h2, classLookup, h3, h4, hv]
  · intro xp dt c e h1 h2 h3 h4
    simp [selectorEval, h1, h2, classLookup, h3, h4]

section NonVacuity
open Samples
example : selectorEval env { path := some "//role", dataType := some (xsd "string"), mustBePresent := true }
    (some { req with attributeSelector := some fun _ => .ok [some (.str "a"), some (.str "b")] })
    = .ok (.bag ⟨some stringClass, [str "a", str "b"]⟩) := rfl
end NonVacuity

end Xacml
