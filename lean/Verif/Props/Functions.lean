import Verif.Lemmas.Equality
import Verif.Lemmas.Monad
import Verif.Props.Designator
import Verif.Spec.Samples
import Verif.Spec.Semantics

/-!
# C19–C23, C39, C58: the function library
-/
namespace Xacml
open Spec

/-! ## C19 -/

/-- C19: conjunction of booleans. -/
theorem C19_and (env : Env) (bs : List Bool) (w : World) :
    Func.and.evaluate env (bs.map fun b => .native (.bool b)) w
      = (.ok (.native (.bool (decide (∀ b ∈ bs, b = true)))), w) := by
  have h1 : (bs.map fun b => PyVal.native (.bool b)).all PyVal.isBool = true := by
    simp [List.all_eq_true, PyVal.isBool]
  have h2 : (bs.map fun b => PyVal.native (.bool b)).all PyVal.truthy = decide (∀ b ∈ bs, b = true) := by
    rw [Bool.eq_iff_iff, List.all_eq_true]
    simp only [List.mem_map, forall_exists_index, and_imp, forall_apply_eq_imp_iff₂, PyVal.truthy,
      Native.truthy, decide_eq_true_eq]
  simp only [Func.evaluate, andFn, run_ofExcept, h1, if_true, h2]

/-- C19: any argument that is not a native boolean is rejected wherever it stands. -/
theorem C19_and_rejects (env : Env) (args : List PyVal) (w : World) (x : PyVal) (hx : x ∈ args)
    (hb : ∀ b, x ≠ .native (.bool b)) :
    Func.and.evaluate env args w = (.error .xacmlContextTypeError, w) := by
  have : args.all PyVal.isBool = false := by
    rw [Bool.eq_false_iff, Ne, List.all_eq_true]
    intro h
    have := h x hx
    unfold PyVal.isBool at this
    split at this
    · exact hb _ rfl
    · cases this
  simp [Func.evaluate, andFn, this]

/-- C19: negation, with the rejected calls. -/
theorem C19_not (env : Env) (w : World) :
    (∀ b, Func.not.evaluate env [.native (.bool b)] w = (.ok (.native (.bool (!b))), w)) ∧
    (∀ x, (∀ b, x ≠ .native (.bool b)) →
      Func.not.evaluate env [x] w = (.error .xacmlContextTypeError, w)) ∧
    (∀ args, args.length ≠ 1 → ∃ e, (e = .xacmlContextTypeError ∨ e = .typeError) ∧
      Func.not.evaluate env args w = (.error e, w)) := by
  refine ⟨fun b => rfl, ?_, ?_⟩
  · intro x hx
    simp only [Func.evaluate, run_ofExcept]
    unfold notFn
    split
    · rename_i h; injection h with h; exact absurd h (hx _)
    · rfl
    · rfl
    · rename_i h1 _ ; exact absurd rfl (h1 x)
  · intro args h
    match args with
    | [] => exact ⟨_, .inl rfl, rfl⟩
    | [_] => simp at h
    | x :: _ :: _ =>
      refine ⟨_, .inr rfl, ?_⟩
      cases x with
      | native n => cases n <;> rfl
      | _ => rfl

section NonVacuity
open Samples
example : Func.and.evaluate env [.native (.bool false), .av (str "x")] w0 = (.error .xacmlContextTypeError, w0) :=
  C19_and_rejects env _ w0 (.av (str "x")) (by simp) (by simp)
/-- The boolean attribute value `true` is not a native boolean. -/
example : Func.and.evaluate env [.av ⟨booleanClass, xsd "boolean", some (.bool true)⟩] w0
    = (.error .xacmlContextTypeError, w0) := rfl
example : Func.and.evaluate env [.native (.bool true), .native (.bool false)] w0
    = (.ok (.native (.bool false)), w0) := rfl
end NonVacuity

/-! ## C20 -/

/-- C20: on two values of the function's type, equality of their values. -/
theorem C20_equal (env : Env) (t : AVClass) (v u : AttrVal) (w : World)
    (hv : v.isInst t = true) (hu : u.isInst t = true) :
    ∃ b : Bool, (Func.equal t).evaluate env [.av v, .av u] w = (.ok (.native (.bool b)), w) ∧
      (b = true ↔ SameValue v.value u.value) := by
  refine ⟨optNativeEq v.value u.value, ?_, optNativeEq_iff _ _⟩
  simp [Func.evaluate, equalFn, hv, hu]

/-- C20: anything else fails: two arguments not both of the type with XacmlContextTypeError, any
other number of arguments with the TypeError of the call. -/
theorem C20_equal_rejects (env : Env) (t : AVClass) (args : List PyVal) (w : World) :
    (∀ a b, args = [a, b] → a.isInst t = false ∨ b.isInst t = false →
      (Func.equal t).evaluate env args w = (.error .xacmlContextTypeError, w)) ∧
    (args.length ≠ 2 → (Func.equal t).evaluate env args w = (.error .typeError, w)) := by
  refine ⟨?_, ?_⟩
  · rintro a b rfl h
    simp only [Func.evaluate, run_ofExcept]
    cases a <;> cases b <;> simp only [equalFn]
    rename_i v u
    simp only [PyVal.isInst] at h
    rcases h with h | h
    · simp [h]
    · simp only [h]; split <;> rfl
  · intro h
    match args with
    | [] => rfl
    | [_] => rfl
    | [_, _] => simp at h
    | _ :: _ :: _ :: _ => rfl

/-- C20: `<type>-equal` is symmetric on all arguments. -/
theorem C20_equal_symm (env : Env) (t : AVClass) (a b : PyVal) (w : World) :
    (Func.equal t).evaluate env [a, b] w = (Func.equal t).evaluate env [b, a] w := by
  simp only [Func.evaluate, run_ofExcept]
  cases a <;> cases b <;> simp only [equalFn]
  rename_i v u
  have : optNativeEq v.value u.value = optNativeEq u.value v.value := by
    rw [Bool.eq_iff_iff, optNativeEq_iff, optNativeEq_iff]
    exact ⟨SameValue.symm, SameValue.symm⟩
  rw [this]
  split <;> split <;> rfl

/-- C20: reflexive on values of the type, except for NaN. -/
theorem C20_equal_refl (env : Env) (t : AVClass) (v : AttrVal) (w : World) (hv : v.isInst t = true) :
    (Func.equal t).evaluate env [.av v, .av v] w
      = (.ok (.native (.bool (decide (v.value ≠ some (.float .nan))))), w) := by
  obtain ⟨b, h1, h2⟩ := C20_equal env t v v w hv hv
  rw [h1]
  congr
  rw [Bool.eq_iff_iff, h2, decide_eq_true_iff]
  constructor
  · intro h he
    rw [he] at h
    cases h with
    | number ha => cases ha
  · exact SameValue.refl _

/-- C20: `<type>-match` on two values of the same class, of the function's type, is `<type>-equal`. -/
theorem C20_match_agrees (env : Env) (t : AVClass) (v u : AttrVal) (w : World)
    (hcls : v.cls = u.cls) (hv : v.isInst t = true) :
    (Func.matchFn t).evaluate env [.av v, .av u] w = (Func.equal t).evaluate env [.av v, .av u] w := by
  have hu : u.isInst t = true := by unfold AttrVal.isInst at *; rw [← hcls]; exact hv
  have hi : u.isInst v.cls = true := by unfold AttrVal.isInst AVClass.isSub; rw [← hcls]; simp
  simp [Func.evaluate, equalFn, matchFnEval, hv, hu, AttrVal.pyEq, hcls.symm, AttrVal.dunderEq, hi]

section NonVacuity
open Samples
example : (str "a").isInst stringClass = true ∧ (str "b").isInst stringClass = true ∧
    ¬ SameValue (str "a").value (str "b").value ∧ SameValue (str "a").value (str "a").value := by
  refine ⟨rfl, rfl, ?_, .str _⟩
  intro h
  have := (optNativeEq_iff _ _).2 h
  revert this; decide +kernel
example : (Func.equal stringClass).evaluate env [.av (str "a"), .av (uri "a")] w0
    = (.error .xacmlContextTypeError, w0) := rfl
end NonVacuity

/-! ## C39 -/

/-- No class is its own proper ancestor, nor are two classes ancestors of each other: the
inheritance relation of Python classes. -/
def AVClass.acyclic (c d : AVClass) : Prop :=
  c.uid ≠ d.uid → ¬ (c.uid ∈ d.ancestors ∧ d.uid ∈ c.ancestors)

/-- C39: within a class, comparison of the values. -/
theorem C39_same_class (v u : AttrVal) (h : v.cls = u.cls) :
    ∃ b : Bool, v.pyEq u = .ok b ∧ (b = true ↔ SameValue v.value u.value) := by
  refine ⟨optNativeEq v.value u.value, ?_, optNativeEq_iff _ _⟩
  have hi : u.isInst v.cls = true := by unfold AttrVal.isInst AVClass.isSub; rw [← h]; simp
  unfold AttrVal.pyEq AttrVal.dunderEq
  rw [if_neg (by rw [h]; simp), if_pos hi]

/-- C39: across classes, including a class and its subclass, TypeError. -/
theorem C39_other_class (v u : AttrVal) (h : v.cls.uid ≠ u.cls.uid) (hac : v.cls.acyclic u.cls) :
    v.pyEq u = .error .typeError := by
  unfold AttrVal.pyEq AttrVal.dunderEq AttrVal.isInst AVClass.isSub
  have hac := hac h
  split
  · rename_i h1
    have : ¬ u.cls.uid ∈ v.cls.ancestors := fun h2 => hac ⟨h1.2, h2⟩
    simp [this, h]
  · rename_i h1
    simp only [ne_eq, h, not_false_eq_true, true_and] at h1
    simp [h1, Ne.symm h]

/-- C39: symmetric and transitive within a class, reflexive except for NaN. -/
theorem C39_equivalence (a b c : AttrVal) (hab : a.cls = b.cls) (hbc : b.cls = c.cls) :
    (a.value ≠ some (.float .nan) → a.pyEq a = .ok true) ∧
    a.pyEq b = b.pyEq a ∧
    (a.pyEq b = .ok true → b.pyEq c = .ok true → a.pyEq c = .ok true) := by
  have key : ∀ x y : AttrVal, x.cls = y.cls → x.pyEq y = .ok (optNativeEq x.value y.value) := by
    intro x y h
    have hi : y.isInst x.cls = true := by unfold AttrVal.isInst AVClass.isSub; rw [← h]; simp
    unfold AttrVal.pyEq AttrVal.dunderEq
    rw [if_neg (by rw [h]; simp), if_pos hi]
  refine ⟨?_, ?_, ?_⟩
  · intro h
    rw [key a a rfl, (optNativeEq_iff _ _).2 (SameValue.refl _ h)]
  · rw [key a b hab, key b a hab.symm]
    congr 1
    rw [Bool.eq_iff_iff, optNativeEq_iff, optNativeEq_iff]
    exact ⟨SameValue.symm, SameValue.symm⟩
  · rw [key a b hab, key b c hbc, key a c (hab.trans hbc)]
    simp only [Except.ok.injEq, optNativeEq_iff]
    exact SameValue.trans

section NonVacuity
open Samples
example : (str "a").pyEq (str "a") = .ok true ∧ (str "a").pyEq (str "b") = .ok false ∧
    (str "a").pyEq (uri "a") = .error .typeError := ⟨rfl, rfl, rfl⟩
example : (str "a").cls.acyclic (uri "a").cls := by unfold AVClass.acyclic; decide +kernel
/-- A subclass instance does not compare with an instance of its base class. -/
example : (str "a").pyEq ⟨⟨"Sub", "urn:x", .str, ["String"]⟩, "urn:x", some (.str "a")⟩ = .error .typeError := rfl
end NonVacuity

/-! ## C21 -/

/-- C21: the single element. -/
theorem C21_one_and_only (env : Env) (t c : AVClass) (v : AttrVal) (w : World) (h : c.uid = t.uid) :
    (Func.oneAndOnly t).evaluate env [.bag ⟨some c, [v]⟩] w = (.ok (.av v), w) := by
  simp [Func.evaluate, oneAndOnlyFn, sameType, h]

/-- C21: every other single argument fails with XacmlContextError. -/
theorem C21_one_and_only_rejects (env : Env) (t : AVClass) (x : PyVal) (w : World)
    (h : ∀ c v, x = .bag ⟨some c, [v]⟩ → c.uid ≠ t.uid) :
    (Func.oneAndOnly t).evaluate env [x] w = (.error .xacmlContextError, w) := by
  cases x with
  | bag b =>
    obtain ⟨et, items⟩ := b
    simp only [Func.evaluate, run_ofExcept, oneAndOnlyFn]
    cases et with
    | none => simp [sameType]
    | some c =>
      match items with
      | [] => simp
      | [v] => simp [sameType, h c v rfl]
      | _ :: _ :: _ => simp
  | _ => rfl

/-- C21: bag then one-and-only is the identity on values of the type, and one-and-only after a
bag call with any other number of arguments fails. -/
theorem C21_bag_then_one_and_only (env : Env) (ctx : Ctx) (t : AVClass) (es : List Expr) (vs : List AttrVal)
    (w w' : World) (hes : Runs (es.map (Expr.evaluate env ctx)) w (vs.map .av) w')
    (hty : ∀ v ∈ vs, v.isInst t = true) :
    (Expr.apply (some (.oneAndOnly t)) [.apply (some (.bag t)) es]).evaluate env ctx w
      = (match vs with
         | [v] => .ok (.av v)
         | _ => .error .xacmlContextError, w') := by
  have hb : (Expr.apply (some (.bag t)) es).evaluate env ctx w = (.ok (.bag ⟨some t, vs⟩), w') := by
    rw [C18_apply env ctx _ es w w' _ hes]
    simp only [Func.evaluate, bagFn, run_ofExcept]
    rw [checkItems_map]
    have : vs.all (okFor (some t)) = true := by
      rw [List.all_eq_true]; exact hty
    simp [this]
  rw [C18_apply env ctx (.oneAndOnly t) [_] w w' _ (.cons hb (.nil _))]
  match vs with
  | [] => simp [Func.evaluate, oneAndOnlyFn, sameType]
  | [v] => simp [Func.evaluate, oneAndOnlyFn, sameType]
  | _ :: _ :: _ => simp [Func.evaluate, oneAndOnlyFn, sameType]

section NonVacuity
open Samples
example : (Expr.apply (some (.oneAndOnly stringClass)) [.apply (some (.bag stringClass)) [.value (str "a")]]).evaluate
    env ctx w0 = (.ok (.av (str "a")), w0) := rfl
example : (Expr.apply (some (.oneAndOnly stringClass))
    [.apply (some (.bag stringClass)) [.value (str "a"), .value (str "a")]]).evaluate
    env ctx w0 = (.error .xacmlContextError, w0) := rfl
end NonVacuity

/-! ## C22 -/

/-- C22: a value that occurs in both. -/
theorem C22_member (env : Env) (t ca cb : AVClass) (as bs : List AttrVal) (w : World)
    (ha : ca.uid = t.uid) (hb : cb.uid = t.uid) :
    ∃ r : Bool, (Func.atLeastOneMemberOf t).evaluate env [.bag ⟨some ca, as⟩, .bag ⟨some cb, bs⟩] w
        = (.ok (.native (.bool r)), w) ∧
      (r = true ↔ ∃ v ∈ as, ∃ u ∈ bs, SameValue v.value u.value) := by
  refine ⟨_, by simp only [Func.evaluate, atLeastOneMemberOfFn, run_ofExcept, sameType, ha, hb,
    beq_self_eq_true, if_true]; rfl, ?_⟩
  simp only [List.any_eq_true, optNativeEq_iff]

/-- C22: every other pair of arguments. -/
theorem C22_rejects (env : Env) (t : AVClass) (a b : PyVal) (w : World)
    (h : ¬ ((∃ c vs, a = .bag ⟨some c, vs⟩ ∧ c.uid = t.uid) ∧ (∃ c vs, b = .bag ⟨some c, vs⟩ ∧ c.uid = t.uid))) :
    (Func.atLeastOneMemberOf t).evaluate env [a, b] w = (.error .xacmlContextTypeError, w) := by
  have st : ∀ et : Option AVClass, sameType et t = true → ∃ c, et = some c ∧ c.uid = t.uid := by
    intro et h
    cases et with
    | none => cases h
    | some c => exact ⟨c, rfl, by simpa [sameType] using h⟩
  simp only [Func.evaluate, run_ofExcept]
  cases a <;> cases b <;> simp only [atLeastOneMemberOfFn]
  rename_i x y
  split
  · rename_i h1
    split
    · rename_i h2
      exfalso
      obtain ⟨c1, h1, h1'⟩ := st _ h1
      obtain ⟨c2, h2, h2'⟩ := st _ h2
      exact h ⟨⟨c1, x.items, by rw [← h1], h1'⟩, ⟨c2, y.items, by rw [← h2], h2'⟩⟩
    · rfl
  · rfl

/-- C22: depends only on the sets of values, is symmetric and monotone: whatever bags have the same
or more elements. -/
theorem C22_set_like (env : Env) (t : AVClass) (as as' bs bs' : List AttrVal) (w : World) :
    let f (x y : List AttrVal) :=
      ((Func.atLeastOneMemberOf t).evaluate env [.bag ⟨some t, x⟩, .bag ⟨some t, y⟩] w)
    (f as bs = f bs as) ∧
    ((∀ v, v ∈ as ↔ v ∈ as') → (∀ v, v ∈ bs ↔ v ∈ bs') → f as bs = f as' bs') ∧
    ((∀ v ∈ as, v ∈ as') → (∀ v ∈ bs, v ∈ bs') →
      f as bs = (.ok (.native (.bool true)), w) → f as' bs' = (.ok (.native (.bool true)), w)) := by
  intro f
  have hf : ∀ x y, ∃ r : Bool, f x y = (.ok (.native (.bool r)), w) ∧
      (r = true ↔ ∃ v ∈ x, ∃ u ∈ y, SameValue v.value u.value) :=
    fun x y => C22_member env t t t x y w rfl rfl
  have ext : ∀ x y x' y', ((∃ v ∈ x, ∃ u ∈ y, SameValue v.value u.value) ↔
      (∃ v ∈ x', ∃ u ∈ y', SameValue v.value u.value)) → f x y = f x' y' := by
    intro x y x' y' h
    obtain ⟨r, h1, h2⟩ := hf x y
    obtain ⟨r', h1', h2'⟩ := hf x' y'
    have : r = r' := by rw [Bool.eq_iff_iff, h2, h2', h]
    rw [h1, h1', this]
  refine ⟨?_, ?_, ?_⟩
  · apply ext
    constructor
    · rintro ⟨v, hv, u, hu, h⟩; exact ⟨u, hu, v, hv, h.symm⟩
    · rintro ⟨v, hv, u, hu, h⟩; exact ⟨u, hu, v, hv, h.symm⟩
  · intro ha hb
    apply ext
    simp only [ha, hb]
  · intro ha hb h
    obtain ⟨r, h1, h2⟩ := hf as bs
    obtain ⟨r', h1', h2'⟩ := hf as' bs'
    rw [h1] at h
    simp only [Prod.mk.injEq, Except.ok.injEq, PyVal.native.injEq, Native.bool.injEq, and_true] at h
    obtain ⟨v, hv, u, hu, hs⟩ := h2.1 h
    have : r' = true := h2'.2 ⟨v, ha v hv, u, hb u hu, hs⟩
    rw [h1', this]

section NonVacuity
open Samples
example : (Func.atLeastOneMemberOf stringClass).evaluate env
    [.bag ⟨some stringClass, [str "a", str "b"]⟩, .bag ⟨some stringClass, [str "c", str "b"]⟩] w0
    = (.ok (.native (.bool true)), w0) := rfl
example : (Func.atLeastOneMemberOf stringClass).evaluate env
    [.bag ⟨some stringClass, [str "a"]⟩, .bag ⟨some stringClass, []⟩] w0
    = (.ok (.native (.bool false)), w0) := rfl
end NonVacuity

/-! ## C23 -/

private theorem joinStrs_strs (vs : List AttrVal) (ss : List String)
    (h : vs.map AttrVal.value = ss.map fun s => some (.str s)) : joinStrs vs = .ok (String.join ss) := by
  have joinc : ∀ (s : String) (ss : List String), String.join (s :: ss) = s ++ String.join ss := by
    intro s ss
    have : ∀ (ss : List String) (a b : String),
        ss.foldl (fun r s => r ++ s) (a ++ b) = a ++ ss.foldl (fun r s => r ++ s) b := by
      intro ss
      induction ss with
      | nil => intro a b; rfl
      | cons x xs ih => intro a b; simp only [List.foldl_cons]; rw [String.append_assoc, ih]
    have h := this ss s ""
    simp only [String.join, List.foldl_cons]
    rw [String.empty_append, ← h, String.append_empty]
  induction vs generalizing ss with
  | nil =>
    cases ss with
    | nil => rfl
    | cons => simp at h
  | cons v vs ih =>
    cases ss with
    | nil => simp at h
    | cons s ss =>
      simp only [List.map_cons, List.cons.injEq] at h
      rw [joinStrs, h.1]
      simp only [ih ss h.2]
      rw [joinc]

private theorem checkRest_ok (c : AVClass) (vs : List AttrVal) (h : ∀ v ∈ vs, v.isInst c = true) :
    checkRest c (vs.map .av) = .ok vs := by
  induction vs with
  | nil => rfl
  | cons v vs ih =>
    rw [List.map_cons, checkRest]
    simp only [h v (by simp), if_true, ih (fun u hu => h u (by simp [hu]))]

private theorem checkRest_error (c : AVClass) (xs : List PyVal) (x : PyVal) (hx : x ∈ xs)
    (h : x.isInst c = false) : checkRest c xs = .error .xacmlContextTypeError := by
  induction xs with
  | nil => cases hx
  | cons y ys ih =>
    rw [checkRest.eq_def]
    rcases List.mem_cons.1 hx with rfl | hx'
    · cases x with
      | av v => simp only [PyVal.isInst] at h; simp [h]
      | _ => rfl
    · cases y with
      | av v => simp only [ih hx']; split <;> rfl
      | _ => rfl

/-- C23: the strings joined in order, as a value of the function's type. -/
theorem C23_concatenate (env : Env) (t : AVClass) (v : AttrVal) (rest : List AttrVal) (s : String)
    (ss : List String) (w : World) (hr : rest ≠ [])
    (hnat : t.native = .str) (hv : v.isInst t = true) (hs : v.value = some (.str s))
    (hrest : ∀ u ∈ rest, u.isInst stringClass = true)
    (hss : rest.map AttrVal.value = ss.map fun s => some (.str s)) :
    (Func.concatenate t).evaluate env (.av v :: rest.map .av) w
      = (.ok (.av { cls := t, dataType := t.identifier, value := some (.str (String.join (s :: ss))) }), w) := by
  cases rest with
  | nil => exact absurd rfl hr
  | cons u us =>
    simp only [Func.evaluate, run_ofExcept, List.map_cons, concatenateFn, hv, if_true]
    have h1 : checkRest stringClass (.av u :: us.map .av) = .ok (u :: us) := checkRest_ok _ (u :: us) hrest
    simp only [h1]
    rw [joinStrs_strs (v :: u :: us) (s :: ss) (by simp only [List.map_cons] at hss ⊢; rw [hs, hss])]
    simp [AVClass.newWith, AttrVal.setValue, AVClass.new, hnat, Native.isInstance]

/-- C23: fewer than two arguments, or an argument of the wrong type, is rejected. -/
theorem C23_rejects (env : Env) (t : AVClass) (args : List PyVal) (w : World) :
    (args.length < 2 → (Func.concatenate t).evaluate env args w = (.error .xacmlContextError, w)) ∧
    (2 ≤ args.length → ((∃ a rest, args = a :: rest ∧
        (a.isInst t = false ∨ ∃ x ∈ rest, x.isInst stringClass = false))) →
      (Func.concatenate t).evaluate env args w = (.error .xacmlContextTypeError, w)) := by
  refine ⟨?_, ?_⟩
  · intro h
    match args with
    | [] => rfl
    | [_] => rfl
    | _ :: _ :: _ => simp at h; omega
  · rintro h ⟨a, rest, rfl, hbad⟩
    match rest with
    | [] => simp at h
    | b :: rest =>
      simp only [Func.evaluate, run_ofExcept, concatenateFn.eq_def]
      cases a with
      | av v =>
        simp only
        rcases hbad with hbad | ⟨x, hx, hbad⟩
        · simp only [PyVal.isInst] at hbad; simp [hbad]
        · rw [checkRest_error stringClass (b :: rest) x hx hbad]
          split <;> rfl
      | _ => rfl

section NonVacuity
open Samples
example : (Func.concatenate stringClass).evaluate env [.av (str "ab"), .av (str "cd"), .av (str "e")] w0
    = (.ok (.av (str "abcde")), w0) := by rfl
example : (Func.concatenate anyURIClass).evaluate env [.av (uri "http://h/"), .av (str "p")] w0
    = (.ok (.av (uri "http://h/p")), w0) := by rfl
example : (Func.concatenate anyURIClass).evaluate env [.av (uri "http://h/"), .av (uri "p")] w0
    = (.error .xacmlContextTypeError, w0) := by rfl
end NonVacuity

/-! ## C58: round -/

/-- Rounding of a finite native float. -/
theorem C58_round_partial (env : Env) (q : Rat) (w : World) :
    ∃ n : Int, Func.round.evaluate env [.native (.float (.fin q))] w = (.ok (.native (.int n)), w) ∧
      NearestEven q n := by
  refine ⟨roundHalfEven q, rfl, ?_⟩
  have h1 : (q.floor : Rat) ≤ q := Rat.floor_le q
  have h2 : q < (q.floor : Rat) + 1 := by
    have := Rat.lt_floor_add_one q
    rwa [Rat.intCast_add] at this
  unfold roundHalfEven NearestEven
  simp only
  generalize q.floor = f at *
  split
  · refine ⟨by grind, by grind, ?_⟩
    rintro (h | h) <;> grind
  · split
    · rw [Rat.intCast_add]
      refine ⟨by grind, by grind, ?_⟩
      rintro (h | h) <;> grind
    · split
      · refine ⟨by grind, by grind, fun _ => by assumption⟩
      · rw [Rat.intCast_add]
        refine ⟨by grind, by grind, fun _ => by omega⟩

/-- C58 is violated: round of a double attribute value, the only kind of value a policy can supply,
always fails. -/
theorem C58_violated (env : Env) (v : AttrVal) (w : World) :
    Func.round.evaluate env [.av v] w = (.error .xacmlContextTypeError, w) := rfl

end Xacml
