import Verif.Spec.Designator
import Verif.Lemmas.Monad

/-! Helper lemmas on designators. -/
namespace Xacml
open Spec

/-- `isinstance(v, elementType)` without exceptions. -/
def okFor (et : Option AVClass) (v : AttrVal) : Bool :=
  match et with
  | some c => v.isInst c
  | none => false

theorem okFor_wellTyped (m : List (String × AVClass)) (dt : Option String) (v : AttrVal) :
    okFor (classLookup m dt) v = true ↔ WellTyped m dt v := by
  unfold okFor classLookup WellTyped
  cases dt with
  | none => simp
  | some d =>
    simp only [Option.some.injEq]
    constructor
    · intro h
      cases hc : m.lookup d with
      | none => simp [hc] at h
      | some c => rw [hc] at h; exact ⟨d, c, rfl, hc, h⟩
    · rintro ⟨_, c, rfl, hc, h⟩
      rw [hc]; exact h

theorem checkItems_map (et : Option AVClass) (vs : List AttrVal) :
    checkItems et (vs.map .av) = if vs.all (okFor et) then .ok vs else .error .typeError := by
  induction vs with
  | nil => rfl
  | cons v vs ih =>
    cases et with
    | none => simp [checkItems, okFor]
    | some c =>
      simp only [List.map_cons, checkItems, ih, List.all_cons, okFor]
      by_cases hv : v.isInst c = true
      · by_cases ha : vs.all (okFor (some c)) = true <;> simp [ha, hv]
      · simp [hv]

theorem checkItems_ok {et : Option AVClass} {xs : List PyVal} {vs} (h : checkItems et xs = .ok vs) :
    xs = vs.map .av ∧ ∀ v ∈ vs, okFor et v = true := by
  induction xs generalizing vs with
  | nil => simp [checkItems] at h; subst h; simp
  | cons x xs ih =>
    unfold checkItems at h
    split at h
    · rename_i c v
      split at h
      · rename_i hv
        split at h
        · rename_i vs' hvs
          injection h with h; subst h
          obtain ⟨h1, h2⟩ := ih hvs
          refine ⟨by simp [h1], ?_⟩
          intro v' hv'
          rcases List.mem_cons.1 hv' with rfl | hv'
          · exact hv
          · exact h2 v' hv'
        · cases h
      · cases h
    · cases h

theorem checkItems_error {et : Option AVClass} {xs : List PyVal} {e} (h : checkItems et xs = .error e) :
    e = .typeError := by
  induction xs with
  | nil => simp [checkItems] at h
  | cons x xs ih =>
    unfold checkItems at h
    split at h
    · split at h
      · split at h
        · cases h
        · rename_i e' he
          injection h with h; subst h; exact ih he
      · injection h with h; exact h.symm
    · injection h with h; exact h.symm

theorem attributeMatch_iff (d : Designator) (a : Attribute) :
    attributeMatch d a = true ↔ AttrSelected d a := by
  unfold attributeMatch AttrSelected
  cases d.issuer with
  | none => simp
  | some i => simp [and_assoc]

theorem designated_cons (d : Designator) (a : Attribute) (as : List Attribute) :
    designated d (a :: as) =
      (if AttrSelected d a then a.values.filter fun v => decide (some v.dataType = d.dataType) else []) ++
        designated d as := by
  unfold designated
  by_cases h : AttrSelected d a <;> simp [h]

theorem designated_append (d : Designator) (as bs : List Attribute) :
    designated d (as ++ bs) = designated d as ++ designated d bs := by
  simp [designated]

theorem collectAttrs_eq (d : Designator) (b : Bag) (attrs : List Attribute) :
    collectAttrs d b attrs =
      if (designated d attrs).all (okFor b.elementType) then
        .ok { b with items := b.items ++ designated d attrs }
      else .error .typeError := by
  induction attrs generalizing b with
  | nil => simp [collectAttrs, designated]
  | cons a as ih =>
    rw [collectAttrs, designated_cons]
    by_cases h : AttrSelected d a
    · rw [if_pos ((attributeMatch_iff d a).2 h), if_pos h]
      have he : (a.values.filter fun v => some v.dataType == d.dataType)
          = (a.values.filter fun v => decide (some v.dataType = d.dataType)) := by
        congr 1; funext v; rw [Bool.eq_iff_iff]; simp
      rw [he, Bag.extend, checkItems_map]
      generalize (a.values.filter fun v => decide (some v.dataType = d.dataType)) = xs
      cases h1 : xs.all (okFor b.elementType) with
      | false => simp [h1]
      | true =>
        simp only [if_true, ih, List.all_append, h1, Bool.true_and]
        split <;> simp
    · rw [if_neg (fun h' => h ((attributeMatch_iff d a).1 h')), if_neg h, ih]
      simp

theorem memBag_av (x : AttrVal) (known : List AttrVal) (b : Bool) (h : memBag (.av x) known = .ok b) :
    b = true ↔ KnownIn known x := by
  induction known with
  | nil => simp [memBag] at h; subst h; simp [KnownIn]
  | cons y ys ih =>
    rw [memBag] at h
    unfold KnownIn
    cases hy : y.pyEq x with
    | error e => simp [hy] at h
    | ok r =>
      cases r with
      | true => simp [hy] at h; subst h; simp [hy]
      | false =>
        simp only [hy] at h
        rw [ih h]
        simp [KnownIn, hy]

theorem weedOut_ok {known : List AttrVal} (hne : known ≠ []) {xs ys : List PyVal}
    (h : weedOut known xs = .ok ys) :
    ys = ((xs.filterMap avOf).filter
      fun x => ¬ KnownIn known x).map .av := by
  induction xs generalizing ys with
  | nil => simp [weedOut] at h; subst h; rfl
  | cons x xs ih =>
    unfold weedOut at h
    cases x with
    | av v =>
      cases hm : memBag (.av v) known with
      | error e => simp [hm] at h
      | ok b =>
        have hk := memBag_av v known b hm
        cases b with
        | true =>
          simp only [hm] at h
          rw [ih h]
          simp [hk.1 rfl, avOf]
        | false =>
          have hk' : ¬ KnownIn known v := fun h' => by simpa using hk.2 h'
          simp only [hm] at h
          cases hw : weedOut known xs with
          | error e => simp [hw] at h
          | ok zs =>
            simp [hw] at h; subst h
            rw [ih hw]
            simp [hk', avOf]
    | _ =>
      cases known with
      | nil => simp at hne
      | cons k ks => simp [memBag] at h

theorem addPip_ok {b b' : Bag} {ans : PipAnswer} (h : addPip b ans = .ok b') :
    b' = { b with items := b.items ++ pipAdds b.items ans } ∧
      ∀ v ∈ pipAdds b.items ans, okFor b.elementType v = true := by
  unfold addPip at h
  cases ans with
  | none => simp at h; subst h; simp [pipAdds]
  | iter it =>
    simp only at h
    by_cases hb : b.items = []
    · simp only [hb, List.isEmpty_nil, if_true, Bag.extend] at h
      split at h
      · rename_i vs hvs
        obtain ⟨h1, h2⟩ := checkItems_ok hvs
        injection h with h; subst h
        have : it.items.filterMap avOf = vs := by
          rw [h1, List.filterMap_map]
          simp [Function.comp_def, avOf]
        simp only [pipAdds, hb, if_true, this, List.nil_append]
        refine ⟨trivial, ?_⟩
        split
        · simp
        · exact h2
      · cases h
    · have hne : b.items.isEmpty = false := by simpa using hb
      simp only [hne, Bool.false_eq_true, if_false] at h
      cases hw : weedOut b.items it.items with
      | error e => simp [hw] at h
      | ok ys =>
        simp only [hw, Bag.extend] at h
        rw [weedOut_ok hb hw] at h
        split at h
        · rename_i vs hvs
          obtain ⟨h1, h2⟩ := checkItems_ok hvs
          injection h with h; subst h
          have he : pipAdds b.items (.iter it) = vs := by
            simp only [pipAdds, hb, if_false]
            exact (List.map_inj_right (fun _ _ h => by injection h)).1 h1
          rw [he]
          exact ⟨rfl, h2⟩
        · cases h

end Xacml
