import Verif.Spec.Reader
import Verif.Lemmas.List
import Verif.Lemmas.Dict
import Verif.Lemmas.Split

/-!
# The readers accept exactly the documents of the grammar
-/
namespace Xacml
open Spec

theorem bind_ok_iff {α β} {x : Except Exc α} {f : α → Except Exc β} {b : β} :
    (x >>= f) = .ok b ↔ ∃ a, x = .ok a ∧ f a = .ok b := by
  cases x with
  | error e =>
    constructor
    · intro h; cases h
    · rintro ⟨a, h, _⟩; cases h
  | ok a =>
    constructor
    · intro h; exact ⟨a, rfl, h⟩
    · rintro ⟨a', h, h'⟩; cases h; exact h'

theorem map_ok_iff {α β} {x : Except Exc α} {f : α → β} {b : β} :
    x.map f = .ok b ↔ ∃ a, x = .ok a ∧ f a = b := by
  cases x with
  | error e => simp [Except.map]
  | ok a => simp [Except.map]

theorem expectName_ok {n : XNode} {k : String} {u : Unit} : expectName n k = .ok u ↔ n.name = k := by
  unfold expectName
  split <;> simp [*]

theorem requiredAttr_ok {n : XNode} {k v : String} : requiredAttr n k = .ok v ↔ n.attr k = some v := by
  unfold requiredAttr
  split <;> simp [*]

/-! ## Each -/

@[simp] theorem each_nil {α β} {R : α → β → Prop} {bs : List β} : Each R [] bs ↔ bs = [] := Iff.rfl

@[simp] theorem each_cons {α β} {R : α → β → Prop} {a : α} {as : List α} {bs : List β} :
    Each R (a :: as) bs ↔ ∃ b bs', bs = b :: bs' ∧ R a b ∧ Each R as bs' := Iff.rfl

theorem each_append {α β} {R : α → β → Prop} {as as' : List α} {bs : List β} :
    Each R (as ++ as') bs ↔ ∃ b b', bs = b ++ b' ∧ Each R as b ∧ Each R as' b' := by
  induction as generalizing bs with
  | nil =>
    constructor
    · intro h; exact ⟨[], bs, rfl, rfl, h⟩
    · rintro ⟨b, b', rfl, rfl, h⟩; exact h
  | cons a as ih =>
    simp only [List.cons_append, each_cons, ih]
    constructor
    · rintro ⟨b, bs', rfl, h, b1, b2, rfl, h1, h2⟩
      exact ⟨b :: b1, b2, rfl, ⟨b, b1, rfl, h, h1⟩, h2⟩
    · rintro ⟨b0, b2, rfl, ⟨b, b1, rfl, h, h1⟩, h2⟩
      exact ⟨b, b1 ++ b2, rfl, h, b1, b2, rfl, h1, h2⟩

theorem each_congr {α β} {R S : α → β → Prop} {as : List α} (h : ∀ a ∈ as, ∀ b, R a b ↔ S a b)
    {bs : List β} : Each R as bs ↔ Each S as bs := by
  induction as generalizing bs with
  | nil => simp
  | cons a as ih =>
    simp only [each_cons]
    have h1 := h a List.mem_cons_self
    have h2 := @ih (fun a' ha' => h a' (List.mem_cons_of_mem _ ha'))
    simp only [h1, h2]

theorem each_length {α β} {R : α → β → Prop} {as : List α} {bs : List β} (h : Each R as bs) :
    as.length = bs.length := by
  induction as generalizing bs with
  | nil => rw [each_nil] at h; simp [h]
  | cons a as ih =>
    rw [each_cons] at h
    obtain ⟨b, bs', rfl, _, h2⟩ := h
    simp [ih h2]

theorem each_eq_nil {α β} {R : α → β → Prop} {as : List α} {bs : List β} (h : Each R as bs) :
    as = [] ↔ bs = [] := by
  have := each_length h
  rw [← List.length_eq_zero_iff, ← List.length_eq_zero_iff, this]

/-- Choosing from the end: the last of a list, or else a default. -/
def lastOr {β} (bs : List β) (o : Option β) : Option β := bs.getLast?.or o

theorem lastOr_nil {β} (o : Option β) : lastOr [] o = o := rfl

theorem lastOr_cons {β} (b : β) (bs : List β) (o : Option β) : lastOr (b :: bs) o = lastOr bs (some b) := by
  unfold lastOr
  cases bs with
  | nil => simp
  | cons c cs => simp [List.getLast?_cons]

theorem lastOr_none {β} (bs : List β) : lastOr bs none = bs.getLast? := by
  unfold lastOr; simp

/-! ## Leaves -/

theorem str2Bool_iff (s : String) : str2Bool s = true ↔ TrueWord s := by
  unfold str2Bool TrueWord
  rw [List.contains_iff_mem]
  have hw : ∀ m ∈ [chars% "yes", chars% "true", chars% "t", chars% "1"],
      Char.ofNat 0x307 ∉ m ∧ 'k' ∉ m ∧ ∀ c : Char, c.toLower ∈ m → c.toNat < 128 := by
    intro m hm
    refine ⟨?_, ?_, ?_⟩
    · revert m; decide
    · revert m; decide
    · intro c hc
      have : ∀ m ∈ [chars% "yes", chars% "true", chars% "t", chars% "1"], ∀ d ∈ m, d.toNat < 128 := by decide
      have := this m hm _ hc
      rw [toLower_toNat] at this
      split at this <;> omega
  constructor
  · intro h
    rw [lower_plain rfl (hw _ h).1 (hw _ h).2.1]
    exact h
  · intro h
    rw [lower_of_map fun c hc => (hw _ h).2.2 c (List.mem_map_of_mem hc)]
    exact h

theorem mustBePresent_iff (n : XNode) (b : Bool) :
    b = ((n.attr "MustBePresent").map str2Bool).getD false ↔ MustBePresent n b := by
  unfold MustBePresent
  cases h : n.attr "MustBePresent" with
  | none => cases b <;> simp
  | some s =>
    have := str2Bool_iff s
    cases b <;> cases hs : str2Bool s <;> simp_all

theorem readAttributeValue_ok {env : RdEnv} {n : XNode} {v : AttrVal} :
    readAttributeValue env n = .ok v ↔ IsValue env n v := by
  unfold readAttributeValue IsValue
  simp only [bind_ok_iff, expectName_ok, requiredAttr_ok, exists_const, classLookup]
  refine and_congr_right fun _ => ?_
  constructor
  · rintro ⟨dt, h1, h2⟩
    split at h2
    · cases h2
    · rename_i c hc
      split at h2
      · cases h2
      · rename_i r hr
        exact ⟨dt, c, r, h1, hc, hr, h2⟩
  · rintro ⟨dt, c, r, h1, h2, h3, h4⟩
    refine ⟨dt, h1, ?_⟩
    simp only [h2, h3]
    exact h4

theorem readDesignator_ok {cat : Category} {n : XNode} {d : Designator} :
    readDesignator cat n = .ok d ↔ IsDesignator cat n d := by
  unfold readDesignator IsDesignator
  by_cases hc : cat = .environment
  · subst hc; simp [designatorTag]
  · rw [if_neg hc]
    have htag : designatorTag cat = some cat.designatorName := by
      cases cat <;> first | rfl | exact absurd rfl hc
    simp only [bind_ok_iff, expectName_ok, requiredAttr_ok, exists_const, htag, Option.some.injEq]
    rw [eq_comm (a := n.name)]
    refine and_congr_right fun _ => ?_
    rw [← mustBePresent_iff]
    constructor
    · rintro ⟨dt, h1, aid, h2, h3⟩
      cases h3
      exact ⟨rfl, h2, rfl, h1, rfl, rfl⟩
    · rintro ⟨h1, h2, h3, h4, h5, h6⟩
      obtain ⟨aid, haid⟩ := Option.isSome_iff_exists.mp h1
      obtain ⟨dt, hdt⟩ := Option.isSome_iff_exists.mp h3
      refine ⟨dt, h4.trans hdt, aid, h2.trans haid, ?_⟩
      rw [← haid, ← hdt, ← h5, ← h6]

theorem readSelector_ok {n : XNode} {s : Selector} : readSelector n = .ok s ↔ IsSelector n s := by
  unfold readSelector IsSelector
  simp only [bind_ok_iff, expectName_ok, requiredAttr_ok, exists_const]
  refine and_congr_right fun _ => ?_
  rw [← mustBePresent_iff]
  constructor
  · rintro ⟨dt, h1, aid, h2, h3⟩
    cases h3
    exact ⟨rfl, h2, rfl, h1, rfl⟩
  · rintro ⟨h1, h2, h3, h4, h5⟩
    obtain ⟨aid, haid⟩ := Option.isSome_iff_exists.mp h1
    obtain ⟨dt, hdt⟩ := Option.isSome_iff_exists.mp h3
    refine ⟨dt, h4.trans hdt, aid, h2.trans haid, ?_⟩
    rw [← haid, ← hdt, ← h5]

/-! ## Expressions -/

theorem designatorTag_name {cat : Category} {n : XNode} {d : Designator} (h : IsDesignator cat n d) :
    designatorTag cat = some n.name := h.1

mutual
theorem readApply_ok {env : RdEnv} (n : XNode) {x : Expr} :
    readApply env n = .ok x ↔ n.name = "Apply" ∧ IsExpr env n x := by
  match n with
  | .other => simp [readApply, IsExpr]
  | .elem tag a t cs =>
    simp only [readApply, bind_ok_iff, expectName_ok, requiredAttr_ok, exists_const, IsExpr]
    have ih := fun xs => readArgs_ok (env := env) cs (xs := xs)
    constructor
    · rintro ⟨h1, fid, h2, f, h3, xs, h4, h5⟩
      cases h5
      exact ⟨h1, .inr (.inr (.inr ⟨h1, fid, f, xs, h2, h3, (ih xs).mp h4, rfl⟩))⟩
    · rintro ⟨h1, h2⟩
      refine ⟨h1, ?_⟩
      rcases h2 with ⟨v, ⟨hv, _⟩, _⟩ | ⟨cat, d, ⟨hd, _⟩, _⟩ | ⟨s, ⟨hs, _⟩, _⟩ | ⟨_, fid, f, xs, h2, h3, h4, rfl⟩
      · rw [h1] at hv; simp at hv
      · rw [h1] at hd; cases cat <;> simp [designatorTag] at hd
      · rw [h1] at hs; simp at hs
      · exact ⟨fid, h2, f, h3, xs, (ih xs).mpr h4, rfl⟩
theorem readArgs_ok {env : RdEnv} (l : List XNode) {xs : List Expr} :
    readArgs env l = .ok xs ↔ AreExprs env l xs := by
  match l with
  | [] => simp [readArgs, AreExprs, eq_comm]
  | .other :: rest =>
    have ih := readArgs_ok (env := env) rest (xs := xs)
    simp only [readArgs, AreExprs, ih]
  | .elem tag a t cs :: rest =>
    have ih := fun ys => readArgs_ok (env := env) rest (xs := ys)
    have ihn := fun y => readApply_ok (env := env) (.elem tag a t cs) (x := y)
    simp only [readArgs, AreExprs, bind_ok_iff]
    have key : ∀ y, (if localPart tag = "Apply" then readApply env (.elem tag a t cs)
      else if localPart tag = "AttributeValue" then (readAttributeValue env (.elem tag a t cs)).map .value
      else if localPart tag = "SubjectAttributeDesignator" then
        (readDesignator .subject (.elem tag a t cs)).map (.designator .subject)
      else if localPart tag = "ResourceAttributeDesignator" then
        (readDesignator .resource (.elem tag a t cs)).map (.designator .resource)
      else if localPart tag = "EnvironmentAttributeDesignator" then
        (readDesignator .environment (.elem tag a t cs)).map (.designator .environment)
      else if localPart tag = "ActionAttributeDesignator" then
        (readDesignator .action (.elem tag a t cs)).map (.designator .action)
      else if localPart tag = "AttributeSelector" then (readSelector (.elem tag a t cs)).map .selector
      else if localPart tag = "Condition" then
        readConditionExpr env (.elem tag a t cs) >>= fun _ => .error .typeError
      else if localPart tag = "Function" then .error .notImplementedError
      else if localPart tag = "VariableReference" then .error .notImplementedError
      else .error .xmlParseError) = .ok y ↔ IsExpr env (.elem tag a t cs) y := by
      intro y
      have hname : (XNode.elem tag a t cs).name = localPart tag := rfl
      have hval : localPart tag ≠ "AttributeValue" → ∀ v, ¬ IsValue env (.elem tag a t cs) v :=
        fun h v hv => h (hname ▸ hv.1)
      have hsel : localPart tag ≠ "AttributeSelector" → ∀ v, ¬ IsSelector (.elem tag a t cs) v :=
        fun h v hv => h (hname ▸ hv.1)
      have hdes : ∀ cat d, IsDesignator cat (.elem tag a t cs) d → designatorTag cat = some (localPart tag) :=
        fun cat d h => h.1
      have desCase : ∀ cat, designatorTag cat = some (localPart tag) →
          ((readDesignator cat (.elem tag a t cs)).map (.designator cat) = .ok y ↔
            IsExpr env (.elem tag a t cs) y) := by
        intro cat hcat
        rw [map_ok_iff]
        simp only [readDesignator_ok, IsExpr, hname]
        constructor
        · rintro ⟨d, h, rfl⟩; exact .inr (.inl ⟨cat, d, h, rfl⟩)
        · rintro (⟨v, h, _⟩ | ⟨cat', d, h, rfl⟩ | ⟨s, h, _⟩ | ⟨h, _⟩)
          · exfalso; have := h.1; rw [hname] at this
            rw [this] at hcat; cases cat <;> simp [designatorTag] at hcat
          · have h' := hdes _ _ h
            have : cat' = cat := by
              rw [← h'] at hcat
              cases cat <;> cases cat' <;> simp [designatorTag] at hcat ⊢
            subst this
            exact ⟨d, h, rfl⟩
          · exfalso; have := h.1; rw [hname] at this
            rw [this] at hcat; cases cat <;> simp [designatorTag] at hcat
          · exfalso; rw [h] at hcat; cases cat <;> simp [designatorTag] at hcat
      by_cases h1 : localPart tag = "Apply"
      · rw [if_pos h1, ihn, hname]
        simp [h1]
      rw [if_neg h1]
      by_cases h2 : localPart tag = "AttributeValue"
      · rw [if_pos h2, map_ok_iff]
        simp only [readAttributeValue_ok, IsExpr, hname]
        constructor
        · rintro ⟨v, h, rfl⟩; exact .inl ⟨v, h, rfl⟩
        · rintro (⟨v, h, rfl⟩ | ⟨cat, d, h, _⟩ | ⟨s, h, _⟩ | ⟨h, _⟩)
          · exact ⟨v, h, rfl⟩
          · exfalso; have := hdes _ _ h; rw [h2] at this; cases cat <;> simp [designatorTag] at this
          · exact absurd h (hsel (by rw [h2]; decide) s)
          · exact absurd h h1
      rw [if_neg h2]
      by_cases h3 : localPart tag = "SubjectAttributeDesignator"
      · rw [if_pos h3]; exact desCase .subject (by rw [h3]; rfl)
      rw [if_neg h3]
      by_cases h4 : localPart tag = "ResourceAttributeDesignator"
      · rw [if_pos h4]; exact desCase .resource (by rw [h4]; rfl)
      rw [if_neg h4]
      have none_left : localPart tag ≠ "ActionAttributeDesignator" → localPart tag ≠ "AttributeSelector" →
          ¬ IsExpr env (.elem tag a t cs) y := by
        intro h5 h6
        simp only [IsExpr, hname]
        rintro (⟨v, h, _⟩ | ⟨cat, d, h, _⟩ | ⟨s, h, _⟩ | ⟨h, _⟩)
        · exact hval h2 v h
        · have := hdes _ _ h
          cases cat <;> simp [designatorTag] at this
          · exact h3 this.symm
          · exact h4 this.symm
          · exact h5 this.symm
        · exact hsel h6 s h
        · exact h1 h
      by_cases h5 : localPart tag = "EnvironmentAttributeDesignator"
      · rw [if_pos h5]
        have := none_left (by rw [h5]; decide) (by rw [h5]; decide)
        simp [readDesignator, Except.map, this]
      rw [if_neg h5]
      by_cases h6 : localPart tag = "ActionAttributeDesignator"
      · rw [if_pos h6]; exact desCase .action (by rw [h6]; rfl)
      rw [if_neg h6]
      by_cases h7 : localPart tag = "AttributeSelector"
      · rw [if_pos h7, map_ok_iff]
        simp only [readSelector_ok, IsExpr, hname]
        constructor
        · rintro ⟨v, h, rfl⟩; exact .inr (.inr (.inl ⟨v, h, rfl⟩))
        · rintro (⟨v, h, rfl⟩ | ⟨cat, d, h, _⟩ | ⟨s, h, rfl⟩ | ⟨h, _⟩)
          · exact absurd h (hval h2 v)
          · exfalso; have := hdes _ _ h; rw [h7] at this; cases cat <;> simp [designatorTag] at this
          · exact ⟨s, h, rfl⟩
          · exact absurd h h1
      rw [if_neg h7]
      have hno := none_left h6 h7
      have hc : (readConditionExpr env (.elem tag a t cs) >>= fun _ => (.error .typeError : Except Exc Expr))
          ≠ .ok y := by
        intro h; rw [bind_ok_iff] at h; obtain ⟨_, _, h⟩ := h; cases h
      constructor
      · intro h
        exfalso
        split at h
        · exact hc h
        · split at h
          · cases h
          · split at h <;> cases h
      · intro h; exact absurd h hno
    constructor
    · rintro ⟨y, h1, ys, h2, h3⟩
      cases h3
      exact ⟨y, ys, rfl, (key y).mp h1, (ih ys).mp h2⟩
    · rintro ⟨y, ys, rfl, h1, h2⟩
      exact ⟨y, (key y).mpr h1, ys, (ih ys).mpr h2, rfl⟩
end

theorem readSoleChild_ok {env : RdEnv} {l : List XNode} {x : Expr} (hl : (elementChildren l).length = 1) :
    readSoleChild env l = .ok x ↔
      ∃ e, elementChildren l = [e] ∧ e.name = "Apply" ∧ IsExpr env e x := by
  induction l with
  | nil => simp [elementChildren] at hl
  | cons n rest ih =>
    match n with
    | .other =>
      have : elementChildren (.other :: rest) = elementChildren rest := rfl
      rw [this] at hl ⊢
      rw [readSoleChild]
      exact ih hl
    | .elem tag a t cs =>
      have hc : elementChildren (.elem tag a t cs :: rest) = .elem tag a t cs :: elementChildren rest := rfl
      rw [hc] at hl ⊢
      have hnil : elementChildren rest = [] := by
        rw [List.length_cons] at hl
        exact List.length_eq_zero_iff.mp (by omega)
      rw [readSoleChild, hnil]
      by_cases h : localPart tag = "Apply"
      · rw [if_pos h, readApply_ok]
        constructor
        · intro hx; exact ⟨_, rfl, hx⟩
        · rintro ⟨e, he, hx⟩; cases he; exact hx
      · rw [if_neg h]
        constructor
        · intro hx; cases hx
        · rintro ⟨e, he, hx⟩; cases he; exact absurd hx.1 h

theorem readConditionExpr_ok {env : RdEnv} {n : XNode} {x : Expr} :
    readConditionExpr env n = .ok x ↔ IsCondition env n { expression := some x } := by
  match n with
  | .other => simp [readConditionExpr, IsCondition, XNode.name]
  | .elem tag a t cs =>
    simp only [readConditionExpr, bind_ok_iff, expectName_ok, exists_const, IsCondition]
    refine and_congr_right fun _ => ?_
    have he : elems (.elem tag a t cs) = elementChildren cs := rfl
    rw [he]
    by_cases hl : (elementChildren cs).length = 1
    · rw [if_neg (by simpa using hl), readSoleChild_ok hl]
      constructor
      · rintro ⟨e, h1, h2, h3⟩; exact ⟨e, x, h1, h2, h3, rfl⟩
      · rintro ⟨e, x', h1, h2, h3, h4⟩
        cases h4
        exact ⟨e, h1, h2, h3⟩
    · rw [if_pos hl]
      constructor
      · intro h; cases h
      · rintro ⟨e, x', h1, _⟩; rw [h1] at hl; exact absurd rfl hl

/-! ## Matches and targets -/

/-- The part of the children with a given name. -/
theorem childrenNamed_eq (n : XNode) (k : String) :
    childrenNamed n k = (elems n).filter (fun c => decide (c.name = k)) := rfl

theorem readMatchChildren_ok {env : RdEnv} {cat : Category} {dtag : String}
    (hd : designatorTag cat = some dtag) {l : List XNode} {m m' : Match}
    (hm : m.designator = none ∨ m.selector = none) :
    readMatchChildren env cat m l = .ok m' ↔
      (∀ c ∈ l, c.name ∈ ["AttributeValue", dtag, "AttributeSelector"]) ∧
      m'.matchId = m.matchId ∧ m'.func = m.func ∧
      ∃ vs ds ss,
        Each (IsValue env) (l.filter fun c => decide (c.name = "AttributeValue")) vs ∧
        Each (fun c d => ∃ d', IsDesignator cat c d' ∧ d = (cat, d')) (l.filter fun c => decide (c.name = dtag)) ds ∧
        Each IsSelector (l.filter fun c => decide (c.name = "AttributeSelector")) ss ∧
        m'.value = lastOr vs m.value ∧ m'.designator = lastOr ds m.designator ∧
        m'.selector = lastOr ss m.selector ∧
        ((m.designator = none ∧ ds = []) ∨ (m.selector = none ∧ ss = [])) := by
  have hname : cat.designatorName = dtag := by
    cases cat <;> simp_all [designatorTag, Category.designatorName]
  have hav : dtag ≠ "AttributeValue" := by
    rintro rfl; cases cat <;> simp [designatorTag] at hd
  have has : dtag ≠ "AttributeSelector" := by
    rintro rfl; cases cat <;> simp [designatorTag] at hd
  induction l generalizing m with
  | nil =>
    simp only [readMatchChildren, Except.ok.injEq, List.filter_nil, each_nil, List.not_mem_nil, false_implies,
      implies_true, true_and]
    constructor
    · rintro rfl
      exact ⟨rfl, rfl, [], [], [], rfl, rfl, rfl, rfl, rfl, rfl, by simpa using hm⟩
    · rintro ⟨h1, h2, vs, ds, ss, rfl, rfl, rfl, h3, h4, h5, _⟩
      cases m; cases m'
      simp only [lastOr_nil] at h1 h2 h3 h4 h5
      simp only [h1, h2, h3, h4, h5]
  | cons n rest ih =>
    simp only [readMatchChildren, bind_ok_iff, readMatchChild, hname, List.forall_mem_cons, List.filter_cons]
    by_cases h1 : n.name = "AttributeValue"
    · have h2 : ¬ n.name = dtag := by rw [h1]; exact fun h => hav h.symm
      simp only [h1, if_true, bind_ok_iff, readAttributeValue_ok, decide_true, hav.symm, decide_false,
        Bool.false_eq_true, if_false, List.mem_cons, true_or, true_and]
      simp only [show ("AttributeValue" = "AttributeSelector") = False from by simp, decide_false,
        Bool.false_eq_true, if_false, each_cons]
      constructor
      · rintro ⟨m1, ⟨v, hv, hm1⟩, h⟩
        cases hm1
        replace h := (ih (m := { m with value := some v }) hm).mp h
        obtain ⟨hk, e1, e2, vs, ds, ss, a1, a2, a3, b1, b2, b3, b4⟩ := h
        refine ⟨by simpa using hk, e1, e2, v :: vs, ds, ss, ⟨v, vs, rfl, hv, a1⟩, a2, a3, ?_, b2, b3, b4⟩
        rw [lastOr_cons]; exact b1
      · rintro ⟨hk, e1, e2, vs, ds, ss, ⟨v, vs', rfl, hv, a1⟩, a2, a3, b1, b2, b3, b4⟩
        refine ⟨{ m with value := some v }, ⟨v, hv, rfl⟩, ?_⟩
        rw [lastOr_cons] at b1
        exact (ih (m := { m with value := some v }) hm).mpr ⟨by simpa using hk, e1, e2, vs', ds, ss, a1, a2, a3, b1, b2, b3, b4⟩
    · by_cases h2 : n.name = dtag
      · simp only [if_false, h2, if_true, decide_true, hav, has, decide_false, Bool.false_eq_true, each_cons,
          List.mem_cons, true_or, or_true, true_and]
        by_cases hs : m.selector = none
        · simp only [hs, Option.isSome_none, Bool.false_eq_true, if_false, bind_ok_iff, readDesignator_ok]
          constructor
          · rintro ⟨m1, ⟨d, hd', hm1⟩, h⟩
            cases hm1
            replace h := (ih (m := { m with designator := some (cat, d), selector := none }) (.inr rfl)).mp h
            obtain ⟨hk, e1, e2, vs, ds, ss, a1, a2, a3, b1, b2, b3, b4⟩ := h
            simp only [reduceCtorEq, false_and, false_or, true_and] at b4
            subst b4
            refine ⟨by simpa using hk, e1, e2, vs, (cat, d) :: ds, [], a1, ⟨_, ds, rfl, ⟨d, hd', rfl⟩, a2⟩, a3, b1, ?_, ?_, .inr ⟨trivial, rfl⟩⟩
            · rw [lastOr_cons]; exact b2
            · rw [lastOr_nil] at b3 ⊢; exact b3
          · rintro ⟨hk, e1, e2, vs, ds, ss, a1, ⟨d0, ds', rfl, ⟨d, hd', rfl⟩, a2⟩, a3, b1, b2, b3, b4⟩
            simp only [reduceCtorEq, and_false, false_or, true_and] at b4
            subst b4
            refine ⟨{ m with designator := some (cat, d), selector := none }, ⟨d, hd', rfl⟩, ?_⟩
            rw [lastOr_cons] at b2
            exact (ih (m := { m with designator := some (cat, d), selector := none }) (.inr rfl)).mpr ⟨by simpa using hk, e1, e2, vs, ds', [], a1, a2, a3, b1, b2, by rw [lastOr_nil] at b3 ⊢; exact b3, .inr ⟨rfl, rfl⟩⟩
        · have hss : m.selector.isSome = true := by
            cases h : m.selector with
            | none => exact absurd h hs
            | some _ => rfl
          simp only [hss, if_true]
          constructor
          · rintro ⟨m1, h, _⟩; cases h
          · rintro ⟨hk, e1, e2, vs, ds, ss, a1, ⟨d0, ds', rfl, _, a2⟩, a3, b1, b2, b3, b4⟩
            simp [hs] at b4
      · by_cases h3 : n.name = "AttributeSelector"
        · simp only [h3, if_true, decide_true, has.symm, decide_false, Bool.false_eq_true,
            if_false, List.mem_cons, or_true, true_or, true_and, each_cons,
            show ("AttributeSelector" = "AttributeValue") = False from by simp]
          by_cases hs : m.designator = none
          · simp only [hs, Option.isSome_none, Bool.false_eq_true, if_false, bind_ok_iff, readSelector_ok]
            constructor
            · rintro ⟨m1, ⟨d, hd', hm1⟩, h⟩
              cases hm1
              replace h := (ih (m := { m with selector := some d, designator := none }) (.inl rfl)).mp h
              obtain ⟨hk, e1, e2, vs, ds, ss, a1, a2, a3, b1, b2, b3, b4⟩ := h
              simp only [reduceCtorEq, false_and, or_false, true_and] at b4
              subst b4
              refine ⟨by simpa using hk, e1, e2, vs, [], d :: ss, a1, a2, ⟨_, ss, rfl, hd', a3⟩, b1, ?_, ?_, .inl ⟨trivial, rfl⟩⟩
              · rw [lastOr_nil] at b2 ⊢; exact b2
              · rw [lastOr_cons]; exact b3
            · rintro ⟨hk, e1, e2, vs, ds, ss, a1, a2, ⟨d, ss', rfl, hd', a3⟩, b1, b2, b3, b4⟩
              simp only [reduceCtorEq, and_false, or_false, true_and] at b4
              subst b4
              refine ⟨{ m with selector := some d, designator := none }, ⟨d, hd', rfl⟩, ?_⟩
              rw [lastOr_cons] at b3
              exact (ih (m := { m with selector := some d, designator := none }) (.inl rfl)).mpr ⟨by simpa using hk, e1, e2, vs, [], ss', a1, a2, a3, b1, by rw [lastOr_nil] at b2 ⊢; exact b2, b3, .inl ⟨rfl, rfl⟩⟩
          · have hss : m.designator.isSome = true := by
              cases h : m.designator with
              | none => exact absurd h hs
              | some _ => rfl
            simp only [hss, if_true]
            constructor
            · rintro ⟨m1, h, _⟩; cases h
            · rintro ⟨hk, e1, e2, vs, ds, ss, a1, a2, ⟨d, ss', rfl, hd', a3⟩, b1, b2, b3, b4⟩
              simp [hs] at b4
        · simp only [h1, h2, h3, if_false, List.mem_cons, List.not_mem_nil, or_self, false_and]
          constructor
          · rintro ⟨m1, h, _⟩; cases h
          · intro h; exact h.elim

theorem readMatch_ok {env : RdEnv} {cat : Category} {n : XNode} {m : Match} :
    readMatch env cat n = .ok m ↔ IsMatch env cat n m := by
  unfold readMatch IsMatch
  by_cases hc : cat = .environment
  · subst hc; simp [matchTag]
  · rw [if_neg hc]
    have htag : matchTag cat = some cat.matchName := by
      cases cat <;> first | rfl | exact absurd rfl hc
    obtain ⟨dtag, hd⟩ : ∃ dtag, designatorTag cat = some dtag := by
      cases cat <;> first | exact ⟨_, rfl⟩ | exact absurd rfl hc
    simp only [bind_ok_iff, expectName_ok, requiredAttr_ok, exists_const, htag, Option.some.injEq]
    rw [eq_comm (a := n.name)]
    refine and_congr_right fun _ => ?_
    have hl : elementChildren n.children = elems n := rfl
    rw [hl]
    constructor
    · rintro ⟨mid, h1, f, h2, h3⟩
      rw [readMatchChildren_ok hd (.inl rfl)] at h3
      obtain ⟨hk, e1, e2, vs, ds, ss, a1, a2, a3, b1, b2, b3, b4⟩ := h3
      rw [lastOr_none] at b1 b2 b3
      refine ⟨⟨mid, h1, e1, by rw [e2]; exact h2⟩, dtag, hd, hk, ⟨vs, a1, b1⟩, ⟨ds, a2, b2⟩, ⟨ss, a3, b3⟩, ?_⟩
      rcases b4 with ⟨_, rfl⟩ | ⟨_, rfl⟩
      · exact .inl ((each_eq_nil a2).mpr rfl)
      · exact .inr ((each_eq_nil a3).mpr rfl)
    · rintro ⟨⟨mid, h1, e1, e2⟩, dtag', hd', hk, ⟨vs, a1, b1⟩, ⟨ds, a2, b2⟩, ⟨ss, a3, b3⟩, b4⟩
      rw [hd] at hd'
      cases hd'
      refine ⟨mid, h1, m.func, e2, ?_⟩
      rw [readMatchChildren_ok hd (.inl rfl)]
      refine ⟨hk, e1, rfl, vs, ds, ss, a1, a2, a3, ?_, ?_, ?_, ?_⟩
      · rw [lastOr_none]; exact b1
      · rw [lastOr_none]; exact b2
      · rw [lastOr_none]; exact b3
      · rcases b4 with h | h
        · exact .inl ⟨rfl, (each_eq_nil a2).mp h⟩
        · exact .inr ⟨rfl, (each_eq_nil a3).mp h⟩

theorem readMatches_ok {env : RdEnv} {cat : Category} {l : List XNode} {ms : List Match} :
    readMatches env cat l = .ok ms ↔ Each (IsMatch env cat) l ms := by
  induction l generalizing ms with
  | nil => simp [readMatches, eq_comm]
  | cons n rest ih =>
    simp only [readMatches, each_cons]
    by_cases h : n.name = cat.matchName
    · simp only [h, if_true, bind_ok_iff, readMatch_ok, ih, Except.ok.injEq]
      constructor
      · rintro ⟨m, h1, ms', h2, rfl⟩; exact ⟨m, ms', rfl, h1, h2⟩
      · rintro ⟨m, ms', rfl, h1, h2⟩; exact ⟨m, h1, ms', h2, rfl⟩
    · simp only [h, if_false]
      constructor
      · intro h'; cases h'
      · rintro ⟨m, ms', rfl, h1, h2⟩
        have := h1.1
        exfalso
        cases cat <;> simp [matchTag, Category.matchName] at this h <;> exact h this.symm

theorem readTargetChild_ok {env : RdEnv} {cat : Category} {n : XNode} {c : TargetChild} :
    readTargetChild env cat n = .ok c ↔ IsEntry env cat n c := by
  unfold readTargetChild IsEntry
  have hn : cat.childName = entryTag cat := by cases cat <;> rfl
  simp only [bind_ok_iff, expectName_ok, exists_const, readMatches_ok, hn, Except.ok.injEq]
  refine and_congr_right fun _ => ?_
  constructor
  · rintro ⟨ms, h, rfl⟩; exact h
  · intro h; exact ⟨c.matches_, h, rfl⟩

theorem readTargetChildren_ok {env : RdEnv} {cat : Category} {l : List XNode} {cs : List TargetChild} :
    readTargetChildren env cat l = .ok cs ↔ Each (IsEntry env cat) l cs := by
  induction l generalizing cs with
  | nil => simp [readTargetChildren, eq_comm]
  | cons n rest ih =>
    simp only [readTargetChildren, each_cons, bind_ok_iff, readTargetChild_ok, ih, Except.ok.injEq]
    constructor
    · rintro ⟨m, h1, ms', h2, rfl⟩; exact ⟨m, ms', rfl, h1, h2⟩
    · rintro ⟨m, ms', rfl, h1, h2⟩; exact ⟨m, h1, ms', h2, rfl⟩

/-- The entries of the sections of a list of children. -/
def entriesIn (l : List XNode) (k : String) : List XNode :=
  (l.filter fun c => decide (c.name = k)).flatMap elems

theorem entriesIn_cons (n : XNode) (l : List XNode) (k : String) :
    entriesIn (n :: l) k = if n.name = k then elems n ++ entriesIn l k else entriesIn l k := by
  unfold entriesIn
  rw [List.filter_cons]
  by_cases h : n.name = k <;> simp [h]

theorem readSections_ok {env : RdEnv} {l : List XNode} {t t' : Target} :
    readSections env t l = .ok t' ↔
      (∀ c ∈ l, c.name ∈ ["Subjects", "Resources", "Actions", "Environments"]) ∧
      ∃ s r a e, t' = { subjects := t.subjects ++ s, resources := t.resources ++ r, actions := t.actions ++ a,
                        environments := t.environments ++ e } ∧
        Each (IsEntry env .subject) (entriesIn l "Subjects") s ∧
        Each (IsEntry env .resource) (entriesIn l "Resources") r ∧
        Each (IsEntry env .action) (entriesIn l "Actions") a ∧
        Each (IsEntry env .environment) (entriesIn l "Environments") e := by
  induction l generalizing t with
  | nil =>
    simp only [readSections, Except.ok.injEq, entriesIn, List.filter_nil, List.flatMap_nil, each_nil,
      List.not_mem_nil, false_implies, implies_true, true_and]
    constructor
    · rintro rfl; exact ⟨[], [], [], [], by simp, rfl, rfl, rfl, rfl⟩
    · rintro ⟨s, r, a, e, rfl, rfl, rfl, rfl, rfl⟩; simp
  | cons n rest ih =>
    simp only [readSections, bind_ok_iff, readSection, List.forall_mem_cons, entriesIn_cons]
    have hl : elementChildren n.children = elems n := rfl
    simp only [hl]
    by_cases h1 : n.name = "Subjects"
    · simp only [h1, if_true, bind_ok_iff, readTargetChildren_ok, ih, List.mem_cons, true_or, true_and,
        show ("Subjects" = "Resources") = False from by simp, show ("Subjects" = "Actions") = False from by simp,
        show ("Subjects" = "Environments") = False from by simp, if_false, each_append, Except.ok.injEq]
      constructor
      · rintro ⟨t1, ⟨cs, hcs, rfl⟩, hk, s, r, a, e, rfl, a1, a2, a3, a4⟩
        exact ⟨hk, cs ++ s, r, a, e, by simp, ⟨cs, s, rfl, hcs, a1⟩, a2, a3, a4⟩
      · rintro ⟨hk, _, r, a, e, rfl, ⟨cs, s, rfl, hcs, a1⟩, a2, a3, a4⟩
        exact ⟨_, ⟨cs, hcs, rfl⟩, hk, s, r, a, e, by simp, a1, a2, a3, a4⟩
    · by_cases h2 : n.name = "Resources"
      · simp only [h2, if_true, bind_ok_iff, readTargetChildren_ok, ih, List.mem_cons, true_or, or_true, true_and,
          show ("Resources" = "Subjects") = False from by simp, show ("Resources" = "Actions") = False from by simp,
          show ("Resources" = "Environments") = False from by simp, if_false, each_append, Except.ok.injEq]
        constructor
        · rintro ⟨t1, ⟨cs, hcs, rfl⟩, hk, s, r, a, e, rfl, a1, a2, a3, a4⟩
          exact ⟨hk, s, cs ++ r, a, e, by simp, a1, ⟨cs, r, rfl, hcs, a2⟩, a3, a4⟩
        · rintro ⟨hk, s, _, a, e, rfl, a1, ⟨cs, r, rfl, hcs, a2⟩, a3, a4⟩
          exact ⟨_, ⟨cs, hcs, rfl⟩, hk, s, r, a, e, by simp, a1, a2, a3, a4⟩
      · by_cases h3 : n.name = "Actions"
        · simp only [h3, if_true, bind_ok_iff, readTargetChildren_ok, ih, List.mem_cons, true_or, or_true, true_and,
            show ("Actions" = "Subjects") = False from by simp, show ("Actions" = "Resources") = False from by simp,
            show ("Actions" = "Environments") = False from by simp, if_false, each_append, Except.ok.injEq]
          constructor
          · rintro ⟨t1, ⟨cs, hcs, rfl⟩, hk, s, r, a, e, rfl, a1, a2, a3, a4⟩
            exact ⟨hk, s, r, cs ++ a, e, by simp, a1, a2, ⟨cs, a, rfl, hcs, a3⟩, a4⟩
          · rintro ⟨hk, s, r, _, e, rfl, a1, a2, ⟨cs, a, rfl, hcs, a3⟩, a4⟩
            exact ⟨_, ⟨cs, hcs, rfl⟩, hk, s, r, a, e, by simp, a1, a2, a3, a4⟩
        · by_cases h4 : n.name = "Environments"
          · simp only [h4, if_true, bind_ok_iff, readTargetChildren_ok, ih, List.mem_cons, true_or, or_true, true_and,
              show ("Environments" = "Subjects") = False from by simp,
              show ("Environments" = "Resources") = False from by simp,
              show ("Environments" = "Actions") = False from by simp, if_false, each_append, Except.ok.injEq]
            constructor
            · rintro ⟨t1, ⟨cs, hcs, rfl⟩, hk, s, r, a, e, rfl, a1, a2, a3, a4⟩
              exact ⟨hk, s, r, a, cs ++ e, by simp, a1, a2, a3, ⟨cs, e, rfl, hcs, a4⟩⟩
            · rintro ⟨hk, s, r, a, _, rfl, a1, a2, a3, ⟨cs, e, rfl, hcs, a4⟩⟩
              exact ⟨_, ⟨cs, hcs, rfl⟩, hk, s, r, a, e, by simp, a1, a2, a3, a4⟩
          · simp only [h1, h2, h3, h4, if_false, List.mem_cons, List.not_mem_nil, or_self, false_and]
            constructor
            · rintro ⟨m1, h, _⟩; cases h
            · intro h; exact h.elim

theorem readTarget_ok {env : RdEnv} {n : XNode} {t : Target} :
    readTarget env n = .ok t ↔ IsTarget env n t := by
  unfold readTarget IsTarget
  simp only [bind_ok_iff, expectName_ok, exists_const, readSections_ok, List.nil_append]
  refine and_congr_right fun _ => and_congr Iff.rfl ?_
  constructor
  · rintro ⟨s, r, a, e, rfl, h1, h2, h3, h4⟩; exact ⟨h1, h2, h3, h4⟩
  · rintro ⟨h1, h2, h3, h4⟩; exact ⟨_, _, _, _, rfl, h1, h2, h3, h4⟩

/-! ## Rules and policies -/

theorem parseEffect_ok {s : String} {e : Effect} :
    parseEffect s = .ok e ↔ (s = "Permit" ∧ e = .permit) ∨ (s = "Deny" ∧ e = .deny) := by
  unfold parseEffect
  by_cases h1 : s = "Deny"
  · subst h1; simp [eq_comm]
  · by_cases h2 : s = "Permit"
    · subst h2; simp [eq_comm]
    · simp [h1, h2]

/-- The texts of the Description elements of a list. -/
def descriptionsIn (l : List XNode) : List String :=
  (l.filter fun c => decide (c.name = "Description")).filterMap XNode.text

theorem descriptionsIn_cons (n : XNode) (l : List XNode) :
    descriptionsIn (n :: l) = if n.name = "Description" then
      (match n.text with | some t => t :: descriptionsIn l | none => descriptionsIn l) else descriptionsIn l := by
  unfold descriptionsIn
  rw [List.filter_cons]
  by_cases h : n.name = "Description"
  · simp only [h, decide_true, if_true, List.filterMap_cons]
    cases n.text <;> rfl
  · simp [h]

theorem readRuleChildren_ok {env : RdEnv} {l : List XNode} {r r' : Rule} :
    readRuleChildren env r l = .ok r' ↔
      (∀ c ∈ l, c.name ∈ ["Description", "Condition", "Target"]) ∧
      r'.id = r.id ∧ r'.effect = r.effect ∧
      ∃ cs ts,
        Each (IsCondition env) (l.filter fun c => decide (c.name = "Condition")) cs ∧
        Each (IsTarget env) (l.filter fun c => decide (c.name = "Target")) ts ∧
        r'.description = lastOr ((descriptionsIn l).map pyStrip) r.description ∧
        r'.condition = lastOr cs r.condition ∧ r'.target = lastOr ts r.target := by
  induction l generalizing r with
  | nil =>
    simp only [readRuleChildren, Except.ok.injEq, List.filter_nil, each_nil, List.not_mem_nil, false_implies,
      implies_true, true_and, descriptionsIn, List.filterMap_nil, List.map_nil]
    constructor
    · rintro rfl
      exact ⟨rfl, rfl, [], [], rfl, rfl, rfl, rfl, rfl⟩
    · rintro ⟨h1, h2, cs, ts, rfl, rfl, h3, h4, h5⟩
      cases r; cases r'
      simp only [lastOr_nil] at h1 h2 h3 h4 h5
      simp only [h1, h2, h3, h4, h5]
  | cons n rest ih =>
    simp only [readRuleChildren, bind_ok_iff, readRuleChild, List.forall_mem_cons, List.filter_cons,
      descriptionsIn_cons]
    by_cases h1 : n.name = "Description"
    · simp only [h1, if_true, List.mem_cons, true_or, true_and, show ("Description" = "Condition") = False from by simp,
        show ("Description" = "Target") = False from by simp, decide_false, Bool.false_eq_true, if_false]
      cases ht : n.text with
      | none =>
        simp only [Except.ok.injEq]
        constructor
        · rintro ⟨r1, rfl, h⟩; simpa using ih.mp h
        · intro h; exact ⟨r, rfl, ih.mpr (by simpa using h)⟩
      | some t =>
        simp only [Except.ok.injEq, List.map_cons, lastOr_cons]
        constructor
        · rintro ⟨r1, rfl, h⟩; simpa using ih.mp h
        · intro h; exact ⟨_, rfl, ih.mpr (by simpa using h)⟩
    · by_cases h2 : n.name = "Condition"
      · simp only [h2, if_true, List.mem_cons, true_or, or_true, true_and,
          show ("Condition" = "Description") = False from by simp,
          show ("Condition" = "Target") = False from by simp, decide_false, decide_true, Bool.false_eq_true, if_false,
          bind_ok_iff, readConditionExpr_ok, each_cons, Except.ok.injEq]
        constructor
        · rintro ⟨r1, ⟨x, hx, rfl⟩, h⟩
          obtain ⟨hk, e1, e2, cs, ts, a1, a2, b1, b2, b3⟩ := ih.mp h
          exact ⟨by simpa using hk, e1, e2, _ :: cs, ts, ⟨_, cs, rfl, hx, a1⟩, a2, b1, by rw [lastOr_cons]; exact b2, b3⟩
        · rintro ⟨hk, e1, e2, _, ts, ⟨c, cs, rfl, hc, a1⟩, a2, b1, b2, b3⟩
          rw [lastOr_cons] at b2
          have hc' := hc
          obtain ⟨_, _, x, _, _, _, rfl⟩ := hc'
          exact ⟨_, ⟨x, hc, rfl⟩, ih.mpr ⟨by simpa using hk, e1, e2, cs, ts, a1, a2, b1, b2, b3⟩⟩
      · by_cases h3 : n.name = "Target"
        · simp only [h3, if_true, List.mem_cons, true_or, or_true, true_and,
            show ("Target" = "Description") = False from by simp,
            show ("Target" = "Condition") = False from by simp, decide_false, decide_true, Bool.false_eq_true, if_false,
            bind_ok_iff, readTarget_ok, each_cons, Except.ok.injEq]
          constructor
          · rintro ⟨r1, ⟨x, hx, rfl⟩, h⟩
            obtain ⟨hk, e1, e2, cs, ts, a1, a2, b1, b2, b3⟩ := ih.mp h
            exact ⟨by simpa using hk, e1, e2, cs, x :: ts, a1, ⟨_, ts, rfl, hx, a2⟩, b1, b2, by rw [lastOr_cons]; exact b3⟩
          · rintro ⟨hk, e1, e2, cs, _, a1, ⟨x, ts, rfl, hx, a2⟩, b1, b2, b3⟩
            rw [lastOr_cons] at b3
            exact ⟨_, ⟨x, hx, rfl⟩, ih.mpr ⟨by simpa using hk, e1, e2, cs, ts, a1, a2, b1, b2, b3⟩⟩
        · simp only [h1, h2, h3, if_false, List.mem_cons, List.not_mem_nil, or_self, false_and]
          constructor
          · rintro ⟨m1, h, _⟩; cases h
          · intro h; exact h.elim

theorem lastOr_map_none {α β} (f : α → β) (l : List α) : lastOr (l.map f) none = l.getLast?.map f := by
  rw [lastOr_none]
  rw [List.getLast?_map]

theorem readRule_ok {env : RdEnv} {n : XNode} {r : Rule} : readRule env n = .ok r ↔ IsRule env n r := by
  unfold readRule IsRule
  simp only [bind_ok_iff, expectName_ok, requiredAttr_ok, exists_const, readRuleChildren_ok, lastOr_map_none,
    parseEffect_ok]
  refine and_congr_right fun _ => ?_
  constructor
  · rintro ⟨id, h1, eff, h2, e, h3, hk, e1, e2, cs, ts, a1, a2, b1, b2, b3⟩
    rw [lastOr_none] at b2 b3
    refine ⟨by rw [e1]; rfl, by rw [e1]; exact h1, ?_, hk, b1, ⟨cs, a1, b2⟩, ⟨ts, a2, b3⟩⟩
    rcases h3 with ⟨rfl, rfl⟩ | ⟨rfl, rfl⟩
    · exact .inl ⟨h2, e2⟩
    · exact .inr ⟨h2, e2⟩
  · rintro ⟨h0, h1, h2, hk, b1, ⟨cs, a1, b2⟩, ⟨ts, a2, b3⟩⟩
    obtain ⟨id, hid⟩ := Option.isSome_iff_exists.mp h0
    refine ⟨id, h1.trans hid, ?_⟩
    rcases h2 with ⟨h2, e2⟩ | ⟨h2, e2⟩
    · exact ⟨_, h2, .permit, .inl ⟨rfl, rfl⟩, hk, hid, e2, cs, ts, a1, a2, b1, by rw [lastOr_none]; exact b2,
        by rw [lastOr_none]; exact b3⟩
    · exact ⟨_, h2, .deny, .inr ⟨rfl, rfl⟩, hk, hid, e2, cs, ts, a1, a2, b1, by rw [lastOr_none]; exact b2,
        by rw [lastOr_none]; exact b3⟩

theorem readPolicyDefaults_ok {n : XNode} {v : String} :
    readPolicyDefaults n = .ok v ↔ IsDefaults n v := by
  unfold readPolicyDefaults IsDefaults
  simp only [bind_ok_iff, expectName_ok, exists_const]
  refine and_congr_right fun _ => ?_
  split
  · rename_i tag a t cs h
    simp only [h, List.cons.injEq, and_true]
    by_cases hx : localPart tag = "XPathVersion"
    · rw [if_neg (by simpa using hx)]
      constructor
      · intro h'
        refine ⟨_, rfl, rfl, hx, ?_⟩
        split at h'
        · rename_i v' hv; cases h'; exact hv
        · cases h'
      · rintro ⟨c, rfl, _, _, ht⟩
        rw [ht]
    · rw [if_pos hx]
      constructor
      · intro h'; cases h'
      · rintro ⟨c, rfl, _, hx', _⟩; exact absurd hx' hx
  · rename_i h
    simp only [h, List.cons.injEq, and_true]
    constructor
    · intro h'; cases h'
    · rintro ⟨c, rfl, h', _⟩; cases h'
  · rename_i h1 h2
    constructor
    · intro h'; cases h'
    · rintro ⟨c, hc, h', _⟩
      cases c with
      | other => cases h'
      | elem tag a t cs => exact absurd hc (h1 tag a t cs)

theorem loadAlg_rule_ok {h h' : Header} {s : String} :
    loadAlg ruleAlgMap h s = .ok h' ↔
      (ruleAlg s).isSome ∧ h' = { h with algId := some s, alg := ruleAlg s } := by
  have hget : dictGet ruleAlgMap s =
      if s = "urn:oasis:names:tc:xacml:1.0:rule-combining-algorithm:first-applicable" then some (.cls .firstApplicable)
      else if s = "urn:oasis:names:tc:xacml:1.0:rule-combining-algorithm:permit-overrides" then
        some (.cls .permitOverrides)
      else if s = "urn:oasis:names:tc:xacml:1.0:rule-combining-algorithm:deny-overrides" then
        some (.cls .denyOverrides)
      else dictGet (fromKeys ruleAlgorithms) s := by
    simp only [ruleAlgMap, dictGet_set]
  have hrest := dictGet_fromKeys ruleAlgorithms s
  unfold loadAlg Header.setAlgId ruleAlg
  by_cases h1 : s = "urn:oasis:names:tc:xacml:1.0:rule-combining-algorithm:first-applicable"
  · rw [if_pos h1] at hget
    simp only [hget]
    subst h1
    simp [eq_comm]
  · rw [if_neg h1] at hget
    by_cases h2 : s = "urn:oasis:names:tc:xacml:1.0:rule-combining-algorithm:permit-overrides"
    · rw [if_pos h2] at hget
      simp only [hget]
      subst h2
      simp [eq_comm]
    · rw [if_neg h2] at hget
      by_cases h3 : s = "urn:oasis:names:tc:xacml:1.0:rule-combining-algorithm:deny-overrides"
      · rw [if_pos h3] at hget
        simp only [hget]
        subst h3
        simp [eq_comm]
      · rw [if_neg h3] at hget
        simp only [hget]
        rcases hrest with hr | hr <;> simp [hr, h1, h2, h3]

theorem readVersion_eq (n : XNode) : readVersion n = version n := by
  unfold readVersion version
  cases h : n.attr "Version" with
  | none => simp
  | some v => by_cases hv : v = "" <;> simp [hv]

theorem nodup_append_singleton {α} {l : List α} {a : α} :
    (l ++ [a]).Nodup ↔ l.Nodup ∧ a ∉ l := by
  rw [List.nodup_append]
  simp only [List.nodup_cons, List.not_mem_nil, not_false_eq_true, List.nodup_nil, and_self, true_and,
    List.mem_singleton]
  refine and_congr_right fun _ => ?_
  constructor
  · intro h ha; exact h a ha a rfl rfl
  · intro h x hx y hy hxy; subst hy; subst hxy; exact h hx

theorem readPolicyChildren_ok {env : RdEnv} {l : List XNode} {p p' : Header × List Rule}
    (hp : (p.2.map Rule.id).Nodup) :
    readPolicyChildren env p l = .ok p' ↔
      (∀ c ∈ l, c.name ∈ ["Description", "PolicyDefaults", "Target", "Rule"]) ∧
      ∃ vs ts rs,
        Each IsDefaults (l.filter fun c => decide (c.name = "PolicyDefaults")) vs ∧
        Each (IsTarget env) (l.filter fun c => decide (c.name = "Target")) ts ∧
        Each (IsRule env) (l.filter fun c => decide (c.name = "Rule")) rs ∧
        p'.2 = p.2 ++ rs ∧ (p'.2.map Rule.id).Nodup ∧
        p'.1 = { p.1 with
          description := lastOr ((descriptionsIn l).map pyStrip) p.1.description
          xpathVersion := lastOr vs p.1.xpathVersion
          target := lastOr ts p.1.target } := by
  induction l generalizing p with
  | nil =>
    simp only [readPolicyChildren, Except.ok.injEq, List.filter_nil, each_nil, List.not_mem_nil, false_implies,
      implies_true, true_and, descriptionsIn, List.filterMap_nil, List.map_nil]
    constructor
    · rintro rfl
      exact ⟨[], [], [], rfl, rfl, rfl, by simp, hp, rfl⟩
    · rintro ⟨vs, ts, rs, rfl, rfl, rfl, h1, _, h2⟩
      cases p; cases p'
      simp only [lastOr_nil, List.append_nil] at h1 h2
      simp only [h1, h2]
  | cons n rest ih =>
    simp only [readPolicyChildren, bind_ok_iff, readPolicyChild, List.forall_mem_cons, List.filter_cons,
      descriptionsIn_cons]
    by_cases h1 : n.name = "Description"
    · simp only [h1, if_true, List.mem_cons, true_or, true_and,
        show ("Description" = "PolicyDefaults") = False from by simp,
        show ("Description" = "Target") = False from by simp,
        show ("Description" = "Rule") = False from by simp, decide_false, Bool.false_eq_true, if_false]
      cases ht : n.text with
      | none =>
        simp only [Except.ok.injEq]
        constructor
        · rintro ⟨r1, rfl, h⟩; simpa using (ih hp).mp h
        · intro h; exact ⟨p, rfl, (ih hp).mpr (by simpa using h)⟩
      | some t =>
        simp only [Except.ok.injEq, List.map_cons, lastOr_cons]
        constructor
        · rintro ⟨r1, rfl, h⟩
          simpa using (ih (p := ({ p.1 with description := some (pyStrip t) }, p.2)) hp).mp h
        · intro h
          exact ⟨_, rfl, (ih (p := ({ p.1 with description := some (pyStrip t) }, p.2)) hp).mpr (by simpa using h)⟩
    · by_cases h2 : n.name = "PolicyDefaults"
      · simp only [h2, if_true, List.mem_cons, true_or, or_true, true_and,
          show ("PolicyDefaults" = "Description") = False from by simp,
          show ("PolicyDefaults" = "Target") = False from by simp,
          show ("PolicyDefaults" = "Rule") = False from by simp, decide_false, decide_true, Bool.false_eq_true,
          if_false, bind_ok_iff, readPolicyDefaults_ok, each_cons, Except.ok.injEq]
        constructor
        · rintro ⟨r1, ⟨x, hx, rfl⟩, h⟩
          obtain ⟨hk, vs, ts, rs, a1, a2, a3, b1, b2, b3⟩ :=
            (ih (p := ({ p.1 with xpathVersion := some x }, p.2)) hp).mp h
          exact ⟨by simpa using hk, x :: vs, ts, rs, ⟨_, vs, rfl, hx, a1⟩, a2, a3, b1, b2, by rw [lastOr_cons]; exact b3⟩
        · rintro ⟨hk, _, ts, rs, ⟨x, vs, rfl, hx, a1⟩, a2, a3, b1, b2, b3⟩
          rw [lastOr_cons] at b3
          exact ⟨_, ⟨x, hx, rfl⟩, (ih (p := ({ p.1 with xpathVersion := some x }, p.2)) hp).mpr
            ⟨by simpa using hk, vs, ts, rs, a1, a2, a3, b1, b2, b3⟩⟩
      · by_cases h3 : n.name = "Target"
        · simp only [h3, if_true, List.mem_cons, true_or, or_true, true_and,
            show ("Target" = "Description") = False from by simp,
            show ("Target" = "PolicyDefaults") = False from by simp,
            show ("Target" = "Rule") = False from by simp, decide_false, decide_true, Bool.false_eq_true,
            if_false, bind_ok_iff, readTarget_ok, each_cons, Except.ok.injEq]
          constructor
          · rintro ⟨r1, ⟨x, hx, rfl⟩, h⟩
            obtain ⟨hk, vs, ts, rs, a1, a2, a3, b1, b2, b3⟩ :=
              (ih (p := ({ p.1 with target := some x }, p.2)) hp).mp h
            exact ⟨by simpa using hk, vs, x :: ts, rs, a1, ⟨_, ts, rfl, hx, a2⟩, a3, b1, b2, by rw [lastOr_cons]; exact b3⟩
          · rintro ⟨hk, vs, _, rs, a1, ⟨x, ts, rfl, hx, a2⟩, a3, b1, b2, b3⟩
            rw [lastOr_cons] at b3
            exact ⟨_, ⟨x, hx, rfl⟩, (ih (p := ({ p.1 with target := some x }, p.2)) hp).mpr
              ⟨by simpa using hk, vs, ts, rs, a1, a2, a3, b1, b2, b3⟩⟩
        · by_cases h4 : n.name = "Rule"
          · simp only [h4, if_true, List.mem_cons, true_or, or_true, true_and,
              show ("Rule" = "Description") = False from by simp,
              show ("Rule" = "PolicyDefaults") = False from by simp,
              show ("Rule" = "CombinerParameters") = False from by simp,
              show ("Rule" = "RuleCombinerParameters") = False from by simp,
              show ("Rule" = "VariableDefinition") = False from by simp,
              show ("Rule" = "Target") = False from by simp, decide_false, decide_true, Bool.false_eq_true,
              if_false, bind_ok_iff, readRule_ok, each_cons]
            constructor
            · rintro ⟨r1, ⟨x, hx, h0⟩, h⟩
              split at h0
              · cases h0
              · rename_i hx'
                cases h0
                rw [List.contains_iff_mem] at hx'
                have hp' : ((p.2 ++ [x]).map Rule.id).Nodup := by
                  rw [List.map_append, List.map_singleton, nodup_append_singleton]; exact ⟨hp, hx'⟩
                obtain ⟨hk, vs, ts, rs, a1, a2, a3, b1, b2, b3⟩ := (ih (p := (p.1, p.2 ++ [x])) hp').mp h
                exact ⟨by simpa using hk, vs, ts, x :: rs, a1, a2, ⟨_, rs, rfl, hx, a3⟩, by simpa using b1, b2, b3⟩
            · rintro ⟨hk, vs, ts, _, a1, a2, ⟨x, rs, rfl, hx, a3⟩, b1, b2, b3⟩
              have hx' : x.id ∉ p.2.map Rule.id := by
                rw [b1, List.map_append, List.map_cons, List.nodup_append] at b2
                intro hm
                exact b2.2.2 _ hm x.id List.mem_cons_self rfl
              have hp' : ((p.2 ++ [x]).map Rule.id).Nodup := by
                rw [List.map_append, List.map_singleton, nodup_append_singleton]; exact ⟨hp, hx'⟩
              refine ⟨(p.1, p.2 ++ [x]), ⟨x, hx, ?_⟩, (ih (p := (p.1, p.2 ++ [x])) hp').mpr
                ⟨by simpa using hk, vs, ts, rs, a1, a2, a3, by simpa using b1, b2, b3⟩⟩
              rw [if_neg (by rw [List.contains_iff_mem]; exact hx')]
          · simp only [h1, h2, h3, h4, if_false, List.mem_cons, List.not_mem_nil, or_self, false_and]
            constructor
            · rintro ⟨m1, h, _⟩
              split at h
              · cases h
              · split at h
                · cases h
                · split at h
                  · cases h
                  · split at h <;> cases h
            · intro h; exact h.elim

theorem readPolicy_ok {env : RdEnv} {n : XNode} {p : PolicyNode} :
    readPolicy env n = .ok p ↔ IsPolicy env n p := by
  have hdesc : description n = ((descriptionsIn (elementChildren n.children)).getLast?).map pyStrip := rfl
  unfold readPolicy IsPolicy
  simp only [bind_ok_iff, expectName_ok, requiredAttr_ok, exists_const, loadAlg_rule_ok]
  refine and_congr_right fun _ => ?_
  constructor
  · rintro ⟨pid, h1, alg, h2, h, ⟨h3, rfl⟩, q, h4, h5⟩
    cases h5
    obtain ⟨hk, vs, ts, rs, a1, a2, a3, b1, b2, b3⟩ := (readPolicyChildren_ok (by simp)).mp h4
    simp only [lastOr_map_none, List.nil_append] at b3 b1
    simp only [lastOr_none, ← hdesc] at b3
    rw [b3]
    exact ⟨hk, _, _, rfl, rfl, h1, ⟨alg, h2, rfl, h3, rfl⟩, readVersion_eq n, rfl, ⟨vs, a1, rfl⟩, ⟨ts, a2, rfl⟩,
      rfl, b1 ▸ a3, b2⟩
  · rintro ⟨hk, h, rules, rfl, h1, h2, ⟨alg, h3, h4, h5, h6⟩, h7, h8, ⟨vs, a1, b1⟩, ⟨ts, a2, b2⟩, h9, a3, b3⟩
    obtain ⟨pid, hpid⟩ := Option.isSome_iff_exists.mp h1
    refine ⟨pid, h2.trans hpid, alg, h3, _, ⟨h6 ▸ h5, rfl⟩, (h, rules), (readPolicyChildren_ok (by simp)).mpr ?_, rfl⟩
    refine ⟨hk, vs, ts, rules, a1, a2, a3, by simp, b3, ?_⟩
    simp only [lastOr_map_none]
    simp only [lastOr_none, ← hdesc]
    cases h
    simp only at hpid h4 h6 h7 h8 b1 b2 h9
    subst hpid h4 h6 h7 h9 b1 b2
    rw [readVersion_eq, h8]

end Xacml
