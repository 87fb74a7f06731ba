import Verif.Spec.Semantics
import Verif.Lemmas.Sim
import Verif.Lemmas.Equality
import Verif.Lemmas.Designator
import Verif.Lemmas.Target
import Verif.Lemmas.Readers
import Verif.Props.Functions

/-! The evaluator computes the big-step semantics. -/
namespace Xacml
open Spec

/-- The result of a computation in a new process. -/
def Den {α} (m : EvalM α) : Except Exc α := (m start).1

/-- The result is the same in all coherent worlds. -/
abbrev Stable (re : String → Except Exc (String → Bool)) {α} (m : EvalM α) : Prop := Sim (fun _ _ => True) re m m

variable {re : String → Except Exc (String → Bool)}

theorem coh_start : Coh re start := fun p m h => by simp [start] at h

theorem Stable.den {α} {m : EvalM α} (h : Stable re m) {w : World} (hw : Coh re w) : (m w).1 = Den m :=
  (h w start ⟨hw, coh_start, trivial⟩).1

theorem den_bind {α β} {m : EvalM α} {f : α → EvalM β} (hm : Stable re m) (hf : ∀ a, Stable re (f a)) (b : β) :
    Den (m >>= f) = .ok b ↔ ∃ a, Den m = .ok a ∧ Den (f a) = .ok b := by
  have hc := (hm start start ⟨coh_start, coh_start, trivial⟩).2.1
  unfold Den
  rw [run_bind]
  rcases h : m start with ⟨x | a, w1⟩
  · simp
  · rw [h] at hc
    simp only [Except.ok.injEq, exists_eq_left']
    rw [(hf a).den hc]; rfl

theorem den_pure {α} (a : α) : Den (pure a) = .ok a := rfl
theorem den_throw {α} (e : Exc) : Den (EvalM.throw e : EvalM α) = .error e := rfl
theorem den_ofExcept {α} (x : Except Exc α) : Den (EvalM.ofExcept x) = x := rfl

theorem den_catchAll (m : EvalM Decision) (d : Decision) :
    Den (catchAll m) = .ok d ↔ Den m = .ok d ∨ ((∀ d', Den m ≠ .ok d') ∧ d = .indeterminate) := by
  unfold Den catchAll
  rcases m start with ⟨x | a, w1⟩
  · simp [eq_comm]
  · simp

/-! ## Functions -/

private theorem nearestEven_unique {q : Rat} {n m : Int} (hn : NearestEven q n) (hm : NearestEven q m) : n = m := by
  obtain ⟨h1, h2, h3⟩ := hn
  obtain ⟨k1, k2, k3⟩ := hm
  have a : (n : Rat) ≤ (m : Rat) + 1 := by grind
  have b : (m : Rat) ≤ (n : Rat) + 1 := by grind
  have a' : n ≤ m + 1 := by
    have : (n : Rat) ≤ ((m + 1 : Int) : Rat) := by rw [Rat.intCast_add]; exact a
    exact Rat.intCast_le_intCast.1 this
  have b' : m ≤ n + 1 := by
    have : (m : Rat) ≤ ((n + 1 : Int) : Rat) := by rw [Rat.intCast_add]; exact b
    exact Rat.intCast_le_intCast.1 this
  rcases Int.lt_trichotomy n m with h | h | h
  · have e : m = n + 1 := by omega
    subst e
    rw [Rat.intCast_add] at *
    have := h3 (.inr (by grind))
    have := k3 (.inl (by grind))
    omega
  · exact h
  · have e : n = m + 1 := by omega
    subst e
    rw [Rat.intCast_add] at *
    have := h3 (.inl (by grind))
    have := k3 (.inr (by grind))
    omega

theorem roundHalfEven_nearest (q : Rat) : NearestEven q (roundHalfEven q) := by
  obtain ⟨n, h1, h2⟩ := C58_round_partial ⟨fun _ => .error .reError, [], false⟩ q start
  have : (roundFn [.native (.float (.fin q))], start) = (.ok (.native (.int n)), start) := h1
  simp only [roundFn, Prod.mk.injEq, Except.ok.injEq, PyVal.native.injEq, Native.int.injEq, and_true] at this
  rw [this]; exact h2

theorem nearestEven_iff (q : Rat) (n : Int) : NearestEven q n ↔ n = roundHalfEven q :=
  ⟨fun h => nearestEven_unique h (roundHalfEven_nearest q), fun h => h ▸ roundHalfEven_nearest q⟩

theorem joinStrs_iff (vs : List AttrVal) (s : String) :
    joinStrs vs = .ok s ↔ ∃ texts, Each HasText vs texts ∧ s = String.join texts := by
  induction vs generalizing s with
  | nil => simp [joinStrs, eq_comm]
  | cons v vs ih =>
    rw [joinStrs]
    simp only [each_cons, HasText]
    constructor
    · intro h
      split at h
      · rename_i t ht
        split at h
        · rename_i r hr
          obtain ⟨texts, h1, rfl⟩ := (ih r).1 hr
          injection h with h
          exact ⟨t :: texts, ⟨t, texts, rfl, ht, h1⟩, by rw [String.join_cons]; exact h.symm⟩
        · cases h
      · cases h
    · rintro ⟨_, ⟨t, texts, rfl, ht, h1⟩, rfl⟩
      rw [ht]
      simp only [(ih _).2 ⟨texts, h1, rfl⟩, String.join_cons]

theorem checkRest_iff (c : AVClass) (xs : List PyVal) (vs : List AttrVal) :
    checkRest c xs = .ok vs ↔ xs = vs.map .av ∧ ∀ v ∈ vs, v.isInst c = true := by
  induction xs generalizing vs with
  | nil => cases vs <;> simp [checkRest]
  | cons x xs ih =>
    cases x with
    | av v =>
      rw [checkRest]
      by_cases hv : v.isInst c = true
      · simp only [hv, if_true]
        constructor
        · intro h
          split at h
          · rename_i us hus
            obtain ⟨rfl, h2⟩ := (ih us).1 hus
            injection h with h; subst h
            exact ⟨rfl, by simpa [hv] using h2⟩
          · cases h
        · rintro ⟨h1, h2⟩
          cases vs with
          | nil => simp at h1
          | cons u us =>
            simp only [List.map_cons, List.cons.injEq, PyVal.av.injEq] at h1
            obtain ⟨rfl, rfl⟩ := h1
            rw [(ih us).2 ⟨rfl, fun w hw => h2 w (by simp [hw])⟩]
      · simp only [hv, Bool.false_eq_true, if_false]
        constructor
        · intro h; cases h
        · rintro ⟨h1, h2⟩
          cases vs with
          | nil => simp at h1
          | cons u us =>
            simp only [List.map_cons, List.cons.injEq, PyVal.av.injEq] at h1
            obtain ⟨rfl, rfl⟩ := h1
            exact absurd (h2 v (by simp)) hv
    | _ =>
      simp only [checkRest]
      constructor
      · intro h; cases h
      · rintro ⟨h1, _⟩
        cases vs <;> simp at h1

theorem checkItems_iff (et : Option AVClass) (xs : List PyVal) (vs : List AttrVal) :
    checkItems et xs = .ok vs ↔ xs = vs.map .av ∧ ∀ v ∈ vs, okFor et v = true := by
  refine ⟨checkItems_ok, ?_⟩
  rintro ⟨rfl, h⟩
  rw [checkItems_map, if_pos (List.all_eq_true.2 h)]

theorem andFn_iff (args : List PyVal) (x : PyVal) : andFn args = .ok x ↔ FuncMeans re .and args x := by
  have isBools : args.all PyVal.isBool = true ↔ ∃ bs : List Bool, args = bs.map (.native ∘ .bool) := by
    constructor
    · intro h
      induction args with
      | nil => exact ⟨[], rfl⟩
      | cons a as ih =>
        simp only [List.all_cons, Bool.and_eq_true] at h
        obtain ⟨bs, hb⟩ := ih h.2
        match a, h.1 with
        | .native (.bool b), _ => exact ⟨b :: bs, by simp [hb]⟩
    · rintro ⟨bs, rfl⟩
      simp [PyVal.isBool]
  have truth : ∀ bs : List Bool, (bs.map (PyVal.native ∘ Native.bool)).all PyVal.truthy = true ↔ ∀ b ∈ bs, b = true := by
    intro bs; simp [PyVal.truthy, Native.truthy]
  unfold andFn
  constructor
  · intro h
    split at h
    · rename_i hb
      obtain ⟨bs, rfl⟩ := isBools.1 hb
      injection h with h; subst h
      exact .and (truth bs)
    · cases h
  · intro h
    cases h with
    | @and bs r hr =>
      rw [if_pos (isBools.2 ⟨bs, rfl⟩)]
      congr 3
      rw [Bool.eq_iff_iff, truth, hr]

theorem newWith_str (t : AVClass) (s : String) (r : AttrVal) : t.newWith (.str s) = .ok r ↔
    t.native = .str ∧ r = { cls := t, dataType := t.identifier, value := some (.str s) } := by
  have e : t.newWith (.str s) = if (Native.str s).isInstance t.native = true then
      .ok { cls := t, dataType := t.identifier, value := some (.str s) } else .error .typeError := rfl
  rw [e]
  cases t.native <;> simp [Native.isInstance, eq_comm]

theorem func_den (env : Env) (f : Func) (args : List PyVal) (x : PyVal) :
    Den (f.evaluate env args) = .ok x ↔ FuncMeans env.re f args x := by
  cases f with
  | equal t =>
    show equalFn t args = .ok x ↔ _
    constructor
    · intro h
      unfold equalFn at h
      split at h
      · split at h
        · split at h
          · split at h
            · rename_i hv hw
              injection h with h; subst h
              exact .equal hv hw (optNativeEq_iff _ _)
            · cases h
          · cases h
        · cases h
      · cases h
    · intro h
      cases h with
      | @equal t a b r h1 h2 h3 =>
        simp only [equalFn, h1, h2, if_true]
        congr 3
        rw [Bool.eq_iff_iff, optNativeEq_iff, h3]
  | matchFn t =>
    show matchFnEval t args = .ok x ↔ _
    constructor
    · intro h
      unfold matchFnEval at h
      split at h
      · split at h
        · split at h
          · split at h
            · rename_i hv hw
              split at h
              · injection h with h; subst h
                exact .matchFn hv hw (by assumption)
              · cases h
            · cases h
          · cases h
        · cases h
      · cases h
    · intro h
      cases h with
      | @matchFn t a b r h1 h2 h3 => simp only [matchFnEval, h1, h2, if_true, h3]
  | bag t =>
    show bagFn t args = .ok x ↔ _
    unfold bagFn
    constructor
    · intro h
      split at h
      · rename_i vs hvs
        obtain ⟨rfl, h2⟩ := checkItems_ok hvs
        injection h with h; subst h
        exact .bag h2
      · cases h
    · intro h
      cases h with
      | @bag t vs hvs => rw [(checkItems_iff (some t) _ vs).2 ⟨rfl, hvs⟩]
  | oneAndOnly t =>
    show oneAndOnlyFn t args = .ok x ↔ _
    constructor
    · intro h
      unfold oneAndOnlyFn at h
      split at h
      · rename_i b
        obtain ⟨et, items⟩ := b
        split at h
        · rename_i ht
          split at h
          · rename_i v hv
            injection h with h; subst h
            simp only at hv; subst hv
            cases et with
            | none => simp [sameType] at ht
            | some c => exact .oneAndOnly (by simpa [sameType] using ht)
          · cases h
        · cases h
      · cases h
      · cases h
    · intro h
      cases h with
      | @oneAndOnly t c v hc => simp [oneAndOnlyFn, sameType, hc]
  | atLeastOneMemberOf t =>
    show atLeastOneMemberOfFn t args = .ok x ↔ _
    have any_iff : ∀ vs ws : List AttrVal, (vs.any fun v => ws.any fun w => optNativeEq v.value w.value) = true ↔
        ∃ v ∈ vs, ∃ w ∈ ws, SameValue v.value w.value := by
      intro vs ws; simp [optNativeEq_iff]
    constructor
    · intro h
      unfold atLeastOneMemberOfFn at h
      split at h
      · rename_i a b
        obtain ⟨ea, va⟩ := a
        obtain ⟨eb, vb⟩ := b
        split at h
        · rename_i ha
          split at h
          · rename_i hb
            injection h with h; subst h
            cases ea with
            | none => simp [sameType] at ha
            | some c =>
              cases eb with
              | none => simp [sameType] at hb
              | some c' =>
                exact .atLeastOneMemberOf (by simpa [sameType] using ha) (by simpa [sameType] using hb) (any_iff va vb)
          · cases h
        · cases h
      · cases h
      · cases h
    · intro h
      cases h with
      | @atLeastOneMemberOf t c c' vs ws r h1 h2 h3 =>
        simp only [atLeastOneMemberOfFn, sameType, h1, h2, beq_self_eq_true, if_true]
        congr 3
        rw [Bool.eq_iff_iff, any_iff, h3]
  | and => exact andFn_iff args x
  | not =>
    show notFn args = .ok x ↔ _
    constructor
    · intro h
      unfold notFn at h
      split at h
      · injection h with h; subst h
        exact .not (by simp)
      · cases h
      · cases h
      · cases h
    · intro h
      cases h with
      | @not b r hr =>
        simp only [notFn]
        congr 3
        rw [Bool.eq_iff_iff, hr]; simp
  | round =>
    show roundFn args = .ok x ↔ _
    constructor
    · intro h
      unfold roundFn at h
      split at h <;> first
        | (injection h with h; subst h; first | exact .roundInt | exact .roundBool | exact .roundFloat (roundHalfEven_nearest _))
        | cases h
    · intro h
      cases h with
      | roundInt => rfl
      | roundBool => rfl
      | roundFloat h => rw [(nearestEven_iff _ _).1 h]; rfl
  | regexpMatch t =>
    show (regexpMatchFn env t args start).1 = .ok x ↔ _
    have hg : ∀ pat, (getRegex env pat start).1 = env.re pat := fun pat =>
      (getRegex_coh env pat start coh_start).1
    constructor
    · intro h
      unfold regexpMatchFn at h
      split at h
      · split at h
        · split at h
          · rename_i p i hp
            split at h
            · rename_i hi
              match hpat : p.value with
              | some (.str pat) =>
                simp only [hpat] at h
                have hgp := hg pat
                rw [run_bind] at h
                rcases hr : getRegex env pat start with ⟨e | m, w1⟩
                · rw [hr] at h; cases h
                · rw [hr] at h hgp
                  simp only at h
                  match hs : i.value with
                  | some (.str s) =>
                    simp only [hs] at h
                    injection h with h; subst h
                    exact .regexpMatch hp hi hpat hs hgp.symm
                  | none | some (.int _) | some (.bool _) | some (.float _) | some (.datetime _) | some (.timedelta _) =>
                    simp only [hs] at h; cases h
              | none | some (.int _) | some (.bool _) | some (.float _) | some (.datetime _) | some (.timedelta _) =>
                simp only [hpat] at h; cases h
            · cases h
          · cases h
        · cases h
      · cases h
    · intro h
      cases h with
      | @regexpMatch t p i pat s m h1 h2 h3 h4 h5 =>
        unfold HasText at h3 h4
        simp only [regexpMatchFn, h1, h2, if_true, h3, h4]
        have hgp := hg pat
        rw [run_bind]
        rcases hr : getRegex env pat start with ⟨e | m', w1⟩
        · rw [hr, h5] at hgp; cases hgp
        · rw [hr, h5] at hgp; injection hgp with hgp; subst hgp; rfl
  | concatenate t =>
    show concatenateFn t args = .ok x ↔ _
    constructor
    · intro h
      unfold concatenateFn at h
      split at h
      · split at h
        · split at h
          · rename_i hv
            split at h
            · cases h
            · rename_i vs hvs
              obtain ⟨h1, h2⟩ := (checkRest_iff _ _ _).1 hvs
              split at h
              · cases h
              · rename_i s hs
                obtain ⟨texts, ht, rfl⟩ := (joinStrs_iff _ _).1 hs
                obtain ⟨s0, ts, rfl, hs0, hts⟩ := ht
                split at h
                · rename_i r hr
                  injection h with h; subst h
                  rw [h1]
                  obtain ⟨hn, rfl⟩ := (newWith_str t _ r).1 hr
                  refine .concatenate hv ?_ h2 hs0 hts hn
                  rintro rfl; simp at h1
                · cases h
          · cases h
        · cases h
      · cases h
    · intro h
      cases h with
      | @concatenate t v rest s texts h1 h2 h3 h4 h5 h6 =>
        cases rest with
        | nil => exact absurd rfl h2
        | cons u us =>
          simp only [List.map_cons, concatenateFn, h1, if_true]
          have hc : checkRest stringClass (.av u :: us.map .av) = .ok (u :: us) :=
            (checkRest_iff _ _ _).2 ⟨rfl, h3⟩
          simp only [hc, (joinStrs_iff (v :: u :: us) _).2 ⟨s :: texts, ⟨s, texts, rfl, h4, h5⟩, rfl⟩]
          simp [AVClass.newWith, AttrVal.setValue, AVClass.new, h6, Native.isInstance]
  | custom g =>
    show g args = .ok x ↔ _
    constructor
    · exact .custom
    · intro h; cases h; assumption

theorem func_stable (env : Env) (f : Func) (args : List PyVal) : Stable env.re (f.evaluate env args) :=
  Sim.func env env rfl rfl f args

/-! ## Designators and selectors -/

theorem checkPresent_iff (m : Bool) (b : Bag) (y : PyVal) :
    checkPresent m b = .ok y ↔ (m = true → b.items ≠ []) ∧ y = .bag b := by
  unfold checkPresent
  cases m <;> cases b.items <;> simp [eq_comm]

theorem collectAttrs_iff (env : Env) (d : Designator) (vs : List AttrVal) (attrs : List Attribute) (b : Bag) :
    collectAttrs d ⟨classLookup env.classMap d.dataType, vs⟩ attrs = .ok b ↔
      (∀ v ∈ designated d attrs, WellTyped env.classMap d.dataType v) ∧
      b = ⟨classLookup env.classMap d.dataType, vs ++ designated d attrs⟩ := by
  rw [collectAttrs_eq]
  simp only [← okFor_wellTyped, ← List.all_eq_true]
  by_cases h : (designated d attrs).all (okFor (classLookup env.classMap d.dataType)) = true
  · simp only [h, if_true, true_and]
    exact ⟨fun h => by injection h with h; exact h.symm, fun h => by rw [h]⟩
  · simp only [h, Bool.false_eq_true, if_false, false_and]
    exact ⟨fun h => (by cases h), False.elim⟩

theorem collectResources_iff (env : Env) (d : Designator) (vs : List AttrVal) (rs : List CtxResource) (b : Bag) :
    collectResources d ⟨classLookup env.classMap d.dataType, vs⟩ rs = .ok b ↔
      (∀ v ∈ designated d (rs.flatMap (·.attributes)), WellTyped env.classMap d.dataType v) ∧
      b = ⟨classLookup env.classMap d.dataType, vs ++ designated d (rs.flatMap (·.attributes))⟩ := by
  induction rs generalizing vs with
  | nil => simp [collectResources, designated, eq_comm]
  | cons r rs ih =>
    rw [collectResources]
    simp only [List.flatMap_cons, designated_append, List.mem_append]
    constructor
    · intro h
      split at h
      · rename_i b' hb'
        obtain ⟨h1, rfl⟩ := (collectAttrs_iff ..).1 hb'
        obtain ⟨h2, rfl⟩ := (ih _).1 h
        exact ⟨fun v hv => hv.elim (h1 v) (h2 v), by simp⟩
      · cases h
    · rintro ⟨h1, rfl⟩
      rw [(collectAttrs_iff ..).2 ⟨fun v hv => h1 v (.inl hv), rfl⟩]
      simp only
      exact (ih _).2 ⟨fun v hv => h1 v (.inr hv), by simp⟩

theorem memBag_iff (x : AttrVal) (known : List AttrVal) (b : Bool) :
    memBag (.av x) known = .ok b ↔ Searchable known x ∧ (b = true ↔ KnownIn known x) := by
  constructor
  · intro h
    refine ⟨?_, memBag_av x known b h⟩
    induction known with
    | nil => intro pre y post h; simp at h
    | cons k ks ih =>
      intro pre y post he
      rw [memBag] at h
      cases pre with
      | nil =>
        simp only [List.nil_append, List.cons.injEq] at he
        obtain ⟨rfl, rfl⟩ := he
        cases hy : k.pyEq x with
        | error e => simp [hy] at h
        | ok r => exact .inr ⟨r, rfl⟩
      | cons k' pre =>
        simp only [List.cons_append, List.cons.injEq] at he
        obtain ⟨rfl, rfl⟩ := he
        cases hy : k.pyEq x with
        | error e => simp [hy] at h
        | ok r =>
          cases r with
          | true => exact .inl ⟨k, by simp, hy⟩
          | false =>
            simp only [hy] at h
            rcases ih h pre y post rfl with ⟨u, hu, hu'⟩ | h
            · exact .inl ⟨u, by simp [hu], hu'⟩
            · exact .inr h
  · rintro ⟨h1, h2⟩
    suffices ∃ b, memBag (.av x) known = .ok b by
      obtain ⟨b', hb'⟩ := this
      have := memBag_av x known b' hb'
      rw [hb']
      congr 1
      rw [Bool.eq_iff_iff, this, h2]
    clear h2
    induction known with
    | nil => exact ⟨false, rfl⟩
    | cons k ks ih =>
      rw [memBag]
      rcases h1 [] k ks rfl with ⟨_, h, _⟩ | ⟨r, hr⟩
      · cases h
      · simp only [hr]
        cases r with
        | true => exact ⟨true, rfl⟩
        | false =>
          refine ih fun pre y post he => ?_
          rcases h1 (k :: pre) y post (by rw [he]; rfl) with ⟨u, hu, hu'⟩ | h
          · rcases List.mem_cons.1 hu with rfl | hu
            · rw [hr] at hu'; cases hu'
            · exact .inl ⟨u, hu, hu'⟩
          · exact .inr h

theorem weedOut_iff (known : List AttrVal) (hne : known ≠ []) (xs ys : List PyVal) :
    weedOut known xs = .ok ys ↔ ∃ vs : List AttrVal, xs = vs.map .av ∧ (∀ v ∈ vs, Searchable known v) ∧
      ys = (vs.filter fun v => ¬ KnownIn known v).map .av := by
  induction xs generalizing ys with
  | nil =>
    simp only [weedOut]
    constructor
    · intro h; injection h with h; exact ⟨[], rfl, by simp, h.symm⟩
    · rintro ⟨vs, h1, _, rfl⟩
      cases vs with
      | nil => rfl
      | cons => simp at h1
  | cons x xs ih =>
    rw [weedOut]
    cases x with
    | av v =>
      constructor
      · intro h
        split at h
        · cases h
        · rename_i hm
          obtain ⟨h1, h2⟩ := (memBag_iff ..).1 hm
          obtain ⟨vs, rfl, h3, rfl⟩ := (ih ys).1 h
          refine ⟨v :: vs, rfl, ?_, ?_⟩
          · intro u hu
            rcases List.mem_cons.1 hu with rfl | hu
            · exact h1
            · exact h3 u hu
          · simp [h2.1 rfl]
        · rename_i hm
          obtain ⟨h1, h2⟩ := (memBag_iff ..).1 hm
          split at h
          · rename_i zs hz
            injection h with h; subst h
            obtain ⟨vs, rfl, h3, rfl⟩ := (ih zs).1 hz
            refine ⟨v :: vs, rfl, ?_, ?_⟩
            · intro u hu
              rcases List.mem_cons.1 hu with rfl | hu
              · exact h1
              · exact h3 u hu
            · have : ¬ KnownIn known v := fun hk => by simpa using h2.2 hk
              simp [this]
          · cases h
      · rintro ⟨vs, h1, h2, rfl⟩
        cases vs with
        | nil => simp at h1
        | cons u us =>
          simp only [List.map_cons, List.cons.injEq, PyVal.av.injEq] at h1
          obtain ⟨rfl, rfl⟩ := h1
          have hi := (ih _).2 ⟨us, rfl, fun w hw => h2 w (by simp [hw]), rfl⟩
          by_cases hk : KnownIn known v
          · rw [(memBag_iff v known true).2 ⟨h2 v (by simp), by simp [hk]⟩]
            simp only [hi]; simp [hk]
          · rw [(memBag_iff v known false).2 ⟨h2 v (by simp), by simp [hk]⟩]
            simp only [hi]; simp [hk]
    | _ =>
      cases known with
      | nil => exact absurd rfl hne
      | cons k ks =>
        simp only [memBag]
        constructor
        · intro h; cases h
        · rintro ⟨vs, h1, _⟩
          cases vs <;> simp at h1

theorem extend_iff (env : Env) (dt : Option String) (vs : List AttrVal) (it : PyIter) (b : Bag) :
    Bag.extend ⟨classLookup env.classMap dt, vs⟩ it = .ok b ↔ ∃ us : List AttrVal, it.items = us.map .av ∧
      (∀ v ∈ us, WellTyped env.classMap dt v) ∧
      b = ⟨classLookup env.classMap dt, vs ++ if it.oneShot then [] else us⟩ := by
  unfold Bag.extend
  constructor
  · intro h
    split at h
    · rename_i us hus
      obtain ⟨h1, h2⟩ := checkItems_ok hus
      injection h with h
      exact ⟨us, h1, fun v hv => (okFor_wellTyped ..).1 (h2 v hv), h.symm⟩
    · cases h
  · rintro ⟨us, h1, h2, rfl⟩
    rw [(checkItems_iff _ _ us).2 ⟨h1, fun v hv => (okFor_wellTyped ..).2 (h2 v hv)⟩]

theorem map_av_inj {us vs : List AttrVal} (h : us.map PyVal.av = vs.map PyVal.av) : us = vs :=
  (List.map_inj_right (fun _ _ h => by injection h)).1 h

theorem addPip_iff (env : Env) (dt : Option String) (vs : List AttrVal) (ans : PipAnswer) (b : Bag) :
    addPip ⟨classLookup env.classMap dt, vs⟩ ans = .ok b ↔
      ∃ new, PipGives env dt vs ans new ∧ b = ⟨classLookup env.classMap dt, vs ++ new⟩ := by
  cases ans with
  | none =>
    simp only [addPip]
    constructor
    · intro h; injection h with h; exact ⟨[], .nothing, by simp [← h]⟩
    · rintro ⟨new, h, rfl⟩; cases h; simp
  | iter it =>
    simp only [addPip]
    by_cases hv : vs = []
    · subst hv
      simp only [List.isEmpty_nil, if_true, extend_iff]
      constructor
      · rintro ⟨us, h1, h2, rfl⟩; exact ⟨_, .first rfl h1 h2, rfl⟩
      · rintro ⟨new, h, rfl⟩
        cases h with
        | first h1 h2 h3 => exact ⟨_, h2, h3, rfl⟩
        | more h => exact absurd rfl h
    · have : vs.isEmpty = false := by simpa using hv
      simp only [this, Bool.false_eq_true, if_false]
      constructor
      · intro h
        split at h
        · rename_i ys hys
          obtain ⟨us, h1, h2, rfl⟩ := (weedOut_iff vs hv _ _).1 hys
          obtain ⟨us', h3, h4, rfl⟩ := (extend_iff ..).1 h
          have := map_av_inj h3
          subst this
          refine ⟨_, .more hv h1 h2 ?_, by simp⟩
          intro v hvu hk
          exact h4 v (by simp [hvu, hk])
        · cases h
      · rintro ⟨new, h, rfl⟩
        cases h with
        | first h1 => exact absurd h1 hv
        | @more _ us h1 h2 h3 h4 =>
          rw [(weedOut_iff vs hv _ _).2 ⟨us, h2, h3, rfl⟩]
          simp only
          rw [extend_iff]
          refine ⟨_, rfl, ?_, by simp⟩
          intro v hvu
          simp only [List.mem_filter, decide_eq_true_eq] at hvu
          exact h4 v hvu.1 hvu.2

theorem stable_pipOK {r : Request} (hs : StatelessPip (some r)) : PipOK (fun _ _ => True) (some r) :=
  pipOK_stateless hs

theorem collectSubjects_noPip (env : Env) (r : Request) (hp : r.ctxHandler = none) (d : Designator)
    (vs : List AttrVal) (ss : List CtxSubject) (b : Bag) :
    Den (collectSubjects r d ⟨classLookup env.classMap d.dataType, vs⟩ ss) = .ok b ↔
      (∀ v ∈ designated d (ss.flatMap (·.attributes)), WellTyped env.classMap d.dataType v) ∧
      b = ⟨classLookup env.classMap d.dataType, vs ++ designated d (ss.flatMap (·.attributes))⟩ := by
  induction ss generalizing vs with
  | nil => simp [collectSubjects, den_pure, designated, eq_comm]
  | cons s ss ih =>
    have hst : ∀ b : Bag, Stable env.re (collectSubjects r d b ss) := fun b =>
      Sim.collectSubjects r (by intro r' he pip hp'; injection he with he; subst he; rw [hp] at hp'; cases hp') d b ss
    simp only [collectSubjects, hp]
    rw [den_bind (re := env.re) (Sim.ofExcept _) hst]
    simp only [den_ofExcept, collectAttrs_iff]
    simp only [List.flatMap_cons, designated_append, List.mem_append]
    constructor
    · rintro ⟨_, ⟨h1, rfl⟩, h2⟩
      obtain ⟨h3, rfl⟩ := (ih _).1 h2
      exact ⟨fun v hv => hv.elim (h1 v) (h3 v), by simp⟩
    · rintro ⟨h1, rfl⟩
      refine ⟨_, ⟨fun v hv => h1 v (.inl hv), rfl⟩, ?_⟩
      exact (ih _).2 ⟨fun v hv => h1 v (.inr hv), by simp⟩

theorem pipQuery_stable {r : Request} (hs : StatelessPip (some r)) {pip : Pip} (hp : r.ctxHandler = some pip)
    (q : PipQuery) : Stable re (pipQuery pip q) := by
  rintro w w' ⟨h1, h2, _⟩
  exact ⟨hs r rfl pip hp _ _ q, h1, h2, trivial⟩

theorem collectSubjects_pip (env : Env) (r : Request) (hs : StatelessPip (some r)) (pip : Pip)
    (hp : r.ctxHandler = some pip) (d : Designator) (vs : List AttrVal) (ss : List CtxSubject) (b : Bag) :
    Den (collectSubjects r d ⟨classLookup env.classMap d.dataType, vs⟩ ss) = .ok b ↔
      ∃ us, PipValues env r pip d ss vs us ∧ b = ⟨classLookup env.classMap d.dataType, us⟩ := by
  induction ss generalizing vs with
  | nil =>
    simp only [collectSubjects, den_pure]
    constructor
    · intro h; injection h with h; exact ⟨vs, .nil, h.symm⟩
    · rintro ⟨us, h, rfl⟩; cases h; rfl
  | cons s ss ih =>
    have hst : ∀ b : Bag, Stable env.re (collectSubjects r d b ss) := fun b =>
      Sim.collectSubjects r (pipOK_stateless hs) d b ss
    have h2 : ∀ (b : Bag) (ans : PipAnswer),
        Stable env.re (EvalM.ofExcept (addPip b ans) >>= fun b => collectSubjects r d b ss) :=
      fun b ans => Sim.bind (Sim.ofExcept _) hst
    have h1 : ∀ b : Bag, Stable env.re (pipQuery pip ⟨r.data, d⟩ >>= fun ans =>
        EvalM.ofExcept (addPip b ans) >>= fun b => collectSubjects r d b ss) :=
      fun b => Sim.bind (pipQuery_stable hs hp _) (h2 b)
    have hq : Den (pipQuery pip ⟨r.data, d⟩) = pip [] ⟨r.data, d⟩ := rfl
    simp only [collectSubjects, hp]
    rw [den_bind (re := env.re) (Sim.ofExcept _) h1]
    simp only [den_ofExcept, collectAttrs_iff]
    constructor
    · rintro ⟨_, ⟨h3, rfl⟩, h4⟩
      rw [den_bind (re := env.re) (pipQuery_stable hs hp _) (h2 _), hq] at h4
      obtain ⟨ans, h5, h6⟩ := h4
      rw [den_bind (re := env.re) (Sim.ofExcept _) hst] at h6
      obtain ⟨b', h7, h8⟩ := h6
      obtain ⟨new, h9, rfl⟩ := (addPip_iff ..).1 h7
      obtain ⟨us, h10, rfl⟩ := (ih _).1 h8
      exact ⟨us, .cons h3 h5 h9 h10, rfl⟩
    · rintro ⟨us, h, rfl⟩
      cases h with
      | @cons _ _ _ ans new _ h3 h5 h9 h10 =>
        refine ⟨_, ⟨h3, rfl⟩, ?_⟩
        rw [den_bind (re := env.re) (pipQuery_stable hs hp _) (h2 _), hq]
        refine ⟨ans, h5, ?_⟩
        rw [den_bind (re := env.re) (Sim.ofExcept _) hst]
        exact ⟨_, (addPip_iff ..).2 ⟨new, h9, rfl⟩, (ih _).2 ⟨us, h10, rfl⟩⟩

theorem designator_stable (env : Env) (cat : Category) (d : Designator) {r : Request} (hs : StatelessPip (some r)) :
    Stable env.re (designatorEval env cat d (some r)) :=
  Sim.designator env env rfl cat d (some r) (pipOK_stateless hs)

theorem designator_den (env : Env) (cat : Category) (d : Designator) (r : Request) (hs : StatelessPip (some r))
    (y : PyVal) : Den (designatorEval env cat d (some r)) = .ok y ↔
      ∃ vs, DesignatorMeans env r cat d vs ∧ y = .bag ⟨classLookup env.classMap d.dataType, vs⟩ := by
  have part : ∀ attrs, (cat = .subject → r.ctxHandler = none) → attributesOf cat r.data = some attrs →
      ((∃ b : Bag, ((∀ v ∈ designated d attrs, WellTyped env.classMap d.dataType v) ∧
          b = ⟨classLookup env.classMap d.dataType, [] ++ designated d attrs⟩) ∧
          (d.mustBePresent = true → b.items ≠ []) ∧ y = .bag b) ↔
        ∃ vs, DesignatorMeans env r cat d vs ∧ y = .bag ⟨classLookup env.classMap d.dataType, vs⟩) := by
    intro attrs h1 h2
    constructor
    · rintro ⟨_, ⟨h3, rfl⟩, h4, rfl⟩
      exact ⟨_, .request h1 h2 h3 h4, rfl⟩
    · rintro ⟨vs, h, rfl⟩
      cases h with
      | request h1' h2' h3 h4 =>
        rw [h2] at h2'; injection h2' with h2'; subst h2'
        exact ⟨_, ⟨h3, rfl⟩, h4, rfl⟩
      | pip h5 => rw [h1 rfl] at h5; cases h5
  have exc : ∀ (x : Except Exc Bag), Den (do
      let b ← EvalM.ofExcept x
      EvalM.ofExcept (checkPresent d.mustBePresent b)) = .ok y ↔
      ∃ b, x = .ok b ∧ (d.mustBePresent = true → b.items ≠ []) ∧ y = .bag b := by
    intro x
    rw [den_bind (re := env.re) (Sim.ofExcept _) (fun _ => Sim.ofExcept _)]
    simp only [den_ofExcept, checkPresent_iff]
  have absent : attributesOf cat r.data = none → (∀ vs, ¬ DesignatorMeans env r cat d vs) := by
    intro h vs hv
    cases hv with
    | request _ h2 => rw [h] at h2; cases h2
    | pip => simp [attributesOf] at h
  cases cat with
  | subject =>
    simp only [designatorEval]
    rw [den_bind (re := env.re) (Sim.collectSubjects r (pipOK_stateless hs) d _ _) (fun _ => Sim.ofExcept _)]
    simp only [den_ofExcept, checkPresent_iff]
    cases hp : r.ctxHandler with
    | none =>
      rw [← part _ (fun _ => hp) rfl]
      simp only [collectSubjects_noPip env r hp]
    | some pip =>
      simp only [collectSubjects_pip env r hs pip hp]
      constructor
      · rintro ⟨_, ⟨us, h1, rfl⟩, h2, rfl⟩
        exact ⟨us, .pip hp h1 h2, rfl⟩
      · rintro ⟨vs, h, rfl⟩
        cases h with
        | request h1 => rw [h1 rfl] at hp; cases hp
        | pip h1 h2 h3 =>
          rw [hp] at h1; injection h1 with h1; subst h1
          exact ⟨_, ⟨_, h2, rfl⟩, h3, rfl⟩
  | resource =>
    simp only [designatorEval]
    rw [exc, ← part _ (by simp) rfl]
    simp only [collectResources_iff]
  | action =>
    simp only [designatorEval]
    cases ha : r.data.action with
    | none =>
      simp only [den_throw]
      refine ⟨fun h => by (cases h), ?_⟩
      rintro ⟨vs, h, _⟩
      exact absurd h (absent ha vs)
    | some attrs =>
      simp only
      rw [exc, ← part attrs (by simp) ha]
      simp only [collectAttrs_iff]
  | environment =>
    simp only [designatorEval]
    cases ha : r.data.environment with
    | none =>
      simp only [den_throw]
      refine ⟨fun h => by (cases h), ?_⟩
      rintro ⟨vs, h, _⟩
      exact absurd h (absent ha vs)
    | some attrs =>
      simp only
      rw [exc, ← part attrs (by simp) ha]
      simp only [collectAttrs_iff]

theorem setValue_iff (c : AVClass) (dt : String) (t : Option Native) (v : AttrVal) :
    ({ c.new with dataType := dt } : AttrVal).setValue t = .ok v ↔
      ∃ n, t = some n ∧ n.isInstance c.native = true ∧ v = { cls := c, dataType := dt, value := some n } := by
  cases t with
  | none => simp [AttrVal.setValue]
  | some n =>
    have e : ({ c.new with dataType := dt } : AttrVal).setValue (some n) =
      if n.isInstance c.native = true then .ok { cls := c, dataType := dt, value := some n } else .error .typeError := rfl
    rw [e]
    by_cases h : n.isInstance c.native = true
    · rw [if_pos h]
      constructor
      · intro h'; injection h' with h'; exact ⟨n, rfl, h, h'.symm⟩
      · rintro ⟨m, hm, _, rfl⟩; injection hm with hm; rw [hm]
    · rw [if_neg h]
      constructor
      · intro h'; cases h'
      · rintro ⟨m, hm, h', _⟩; injection hm with hm; subst hm; exact absurd h' h

theorem selectValues_iff (c : AVClass) (dt : String) (ts : List (Option Native)) (vs : List AttrVal) :
    selectValues c dt ts = .ok vs ↔ ∃ ns : List Native, ts = ns.map some ∧ (∀ n ∈ ns, n.isInstance c.native = true) ∧
      vs = ns.map fun n => { cls := c, dataType := dt, value := some n } := by
  induction ts generalizing vs with
  | nil =>
    simp only [selectValues]
    constructor
    · intro h; injection h with h; exact ⟨[], rfl, by simp, h.symm⟩
    · rintro ⟨ns, h1, _, rfl⟩
      cases ns with
      | nil => rfl
      | cons => simp at h1
  | cons t ts ih =>
    rw [selectValues]
    constructor
    · intro h
      split at h
      · cases h
      · rename_i v hv
        obtain ⟨n, rfl, h1, rfl⟩ := (setValue_iff ..).1 hv
        split at h
        · rename_i us hus
          injection h with h; subst h
          obtain ⟨ns, rfl, h2, rfl⟩ := (ih us).1 hus
          refine ⟨n :: ns, rfl, ?_, rfl⟩
          intro m hm
          rcases List.mem_cons.1 hm with rfl | hm
          · exact h1
          · exact h2 m hm
        · cases h
    · rintro ⟨ns, h1, h2, rfl⟩
      cases ns with
      | nil => simp at h1
      | cons n ns =>
        simp only [List.map_cons, List.cons.injEq] at h1
        obtain ⟨rfl, rfl⟩ := h1
        rw [(setValue_iff c dt (some n) _).2 ⟨n, rfl, h2 n (by simp), rfl⟩]
        simp only
        rw [(ih _).2 ⟨ns, rfl, fun m hm => h2 m (by simp [hm]), rfl⟩]
        rfl

theorem selector_iff (env : Env) (s : Selector) (r : Request) (y : PyVal) :
    selectorEval env s (some r) = .ok y ↔
      ∃ vs, SelectorMeans env r s vs ∧ y = .bag ⟨classLookup env.classMap s.dataType, vs⟩ := by
  unfold SelectorMeans
  constructor
  · intro h
    unfold selectorEval at h
    simp only at h
    cases hx : r.attributeSelector with
    | none => simp [hx] at h
    | some xp =>
      simp only [hx] at h
      cases hd : s.dataType with
      | none => simp [hd] at h
      | some dt =>
        simp only [hd] at h
        split at h
        · cases h
        · rename_i c hc
          split at h
          · cases h
          · rename_i ts hts
            split at h
            · cases h
            · rename_i vs hvs
              obtain ⟨ns, rfl, h1, rfl⟩ := (selectValues_iff ..).1 hvs
              obtain ⟨h2, rfl⟩ := (checkPresent_iff ..).1 h
              refine ⟨_, ⟨xp, dt, c, ns, rfl, rfl, hc, hts, h1, ?_, rfl⟩, by rw [hc]⟩
              intro hm hn
              exact h2 hm (by simp [hn])
  · rintro ⟨_, ⟨xp, dt, c, ns, h1, h2, h3, h4, h5, h6, rfl⟩, rfl⟩
    simp only [selectorEval, h1, h2, classLookup, h3, h4]
    rw [(selectValues_iff c dt _ _).2 ⟨ns, rfl, h5, rfl⟩]
    simp only
    rw [checkPresent_iff]
    refine ⟨?_, rfl⟩
    intro hm hn
    exact h6 hm (by simpa using hn)

/-! ## Expressions -/

theorem expr_stable (env : Env) {r : Request} (hs : StatelessPip (some r)) (e : Expr) :
    Stable env.re (e.evaluate env (some r)) := Sim.expr (envOK_refl env) (pipOK_stateless hs) e

theorem exprs_stable (env : Env) {r : Request} (hs : StatelessPip (some r)) (es : List Expr) :
    Stable env.re (Expr.evaluateList env (some r) es) := Sim.exprs (envOK_refl env) (pipOK_stateless hs) es

mutual
theorem expr_den (env : Env) (r : Request) (hs : StatelessPip (some r)) : (e : Expr) → (x : PyVal) →
    (Den (e.evaluate env (some r)) = .ok x ↔ Means env r e x)
  | .value v, x => by
    simp only [Expr.evaluate, den_pure]
    constructor
    · intro h; injection h with h; subst h; exact .value
    · intro h; cases h; rfl
  | .designator cat d, x => by
    simp only [Expr.evaluate]
    rw [designator_den env cat d r hs]
    constructor
    · rintro ⟨vs, h, rfl⟩; exact .designator h
    · intro h; cases h; exact ⟨_, by assumption, rfl⟩
  | .selector s, x => by
    simp only [Expr.evaluate, den_ofExcept]
    rw [selector_iff]
    constructor
    · rintro ⟨vs, h, rfl⟩; exact .selector h
    · intro h; cases h; exact ⟨_, by assumption, rfl⟩
  | .apply fn args, x => by
    simp only [Expr.evaluate]
    rw [den_bind (re := env.re) (exprs_stable env hs args) (by
      intro xs
      cases fn with
      | none => exact Sim.throw _
      | some f => exact func_stable env f xs)]
    constructor
    · rintro ⟨xs, h1, h2⟩
      cases fn with
      | none => cases h2
      | some f => exact .apply ((exprs_den env r hs args xs).1 h1) ((func_den env f xs x).1 h2)
    · intro h
      cases h with
      | apply h1 h2 => exact ⟨_, (exprs_den env r hs args _).2 h1, (func_den ..).2 h2⟩
theorem exprs_den (env : Env) (r : Request) (hs : StatelessPip (some r)) : (es : List Expr) → (xs : List PyVal) →
    (Den (Expr.evaluateList env (some r) es) = .ok xs ↔ MeansAll env r es xs)
  | [], xs => by
    simp only [Expr.evaluateList, den_pure]
    constructor
    · intro h; injection h with h; subst h; exact .nil
    · intro h; cases h; rfl
  | e :: es, xs => by
    simp only [Expr.evaluateList]
    rw [den_bind (re := env.re) (expr_stable env hs e) (fun v => Sim.bind (exprs_stable env hs es) fun _ => Sim.pure _)]
    constructor
    · rintro ⟨v, h1, h2⟩
      rw [den_bind (re := env.re) (exprs_stable env hs es) (fun _ => Sim.pure _)] at h2
      obtain ⟨vs, h3, h4⟩ := h2
      injection h4 with h4; subst h4
      exact .cons ((expr_den env r hs e v).1 h1) ((exprs_den env r hs es vs).1 h3)
    · intro h
      cases h with
      | @cons _ _ v vs h1 h3 =>
        refine ⟨v, (expr_den env r hs e v).2 h1, ?_⟩
        rw [den_bind (re := env.re) (exprs_stable env hs es) (fun _ => Sim.pure _)]
        exact ⟨vs, (exprs_den env r hs es vs).2 h3, rfl⟩
end

/-! ## Match elements and targets -/

theorem matchOne_stable (env : Env) (m : Match) (v : AttrVal) : Stable env.re (matchOne env m v) :=
  Sim.matchOne (envOK_refl env) m (debugOK_refl env m) v

theorem matchOne_den (env : Env) (m : Match) (v : AttrVal) (x : PyVal) :
    Den (matchOne env m v) = .ok x ↔ MatchesValue env m v x := by
  have hd : ∀ y : PyVal, debugCheck env.debug y = .ok () ↔ (env.debug = true → ∀ u, y ≠ .av u) := by
    intro y
    unfold debugCheck
    cases env.debug <;> cases y <;> simp
  unfold matchOne MatchesValue
  cases hf : m.func with
  | none =>
    simp only
    rw [den_bind (re := env.re) (Sim.throw _) (fun _ => Sim.bind (Sim.ofExcept _) fun _ => Sim.pure _)]
    simp [den_throw]
  | some f =>
    simp only
    rw [den_bind (re := env.re) (func_stable env f _) (fun _ => Sim.bind (Sim.ofExcept _) fun _ => Sim.pure _)]
    constructor
    · rintro ⟨y, h1, h2⟩
      rw [den_bind (re := env.re) (Sim.ofExcept _) (fun _ => Sim.pure _)] at h2
      obtain ⟨u, h3, h4⟩ := h2
      injection h4 with h4; subst h4
      exact ⟨f, rfl, (func_den ..).1 h1, (hd y).1 h3⟩
    · rintro ⟨f', h1, h2, h3⟩
      injection h1 with h1; subst h1
      refine ⟨x, (func_den ..).2 h2, ?_⟩
      rw [den_bind (re := env.re) (Sim.ofExcept _) (fun _ => Sim.pure _)]
      exact ⟨(), (hd x).2 h3, rfl⟩

theorem matchLoop_den (env : Env) (m : Match) (vs : List AttrVal) (xs : List PyVal) :
    Den (matchLoop env m vs) = .ok xs ↔ Each (MatchesValue env m) vs xs := by
  have hst : ∀ vs, Stable env.re (matchLoop env m vs) := fun vs =>
    Sim.matchLoop (envOK_refl env) m (debugOK_refl env m) vs
  induction vs generalizing xs with
  | nil => simp [matchLoop, den_pure, eq_comm]
  | cons v vs ih =>
    simp only [matchLoop, each_cons]
    rw [den_bind (re := env.re) (matchOne_stable env m v) (fun _ => Sim.bind (hst vs) fun _ => Sim.pure _)]
    constructor
    · rintro ⟨x, h1, h2⟩
      rw [den_bind (re := env.re) (hst vs) (fun _ => Sim.pure _)] at h2
      obtain ⟨ys, h3, h4⟩ := h2
      injection h4 with h4
      exact ⟨x, ys, h4.symm, (matchOne_den ..).1 h1, (ih ys).1 h3⟩
    · rintro ⟨x, ys, rfl, h1, h3⟩
      refine ⟨x, (matchOne_den ..).2 h1, ?_⟩
      rw [den_bind (re := env.re) (hst vs) (fun _ => Sim.pure _)]
      exact ⟨ys, (ih ys).2 h3, rfl⟩

theorem match_stable (env : Env) {r : Request} (hs : StatelessPip (some r)) (m : Match) :
    Stable env.re (m.evaluate env (some r)) :=
  Sim.matchEval (envOK_refl env) (pipOK_stateless hs) m (debugOK_refl env m)

theorem match_den (env : Env) (r : Request) (hs : StatelessPip (some r)) (m : Match) (b : Bool) :
    Den (m.evaluate env (some r)) = .ok b ↔ MatchMeans env r m b := by
  have hst : ∀ vs, Stable env.re (matchLoop env m vs) := fun vs =>
    Sim.matchLoop (envOK_refl env) m (debugOK_refl env m) vs
  have hrv : Stable env.re (m.requestValues env (some r)) := by
    unfold Match.requestValues
    split
    · exact designator_stable env _ _ hs
    · split
      · exact Sim.ofExcept _
      · exact Sim.throw _
  have values : ∀ y, Den (m.requestValues env (some r)) = .ok y → ∃ et vs, y = .bag ⟨et, vs⟩ := by
    intro y h
    unfold Match.requestValues at h
    split at h
    · obtain ⟨vs, _, rfl⟩ := (designator_den env _ _ r hs y).1 h; exact ⟨_, _, rfl⟩
    · split at h
      · obtain ⟨vs, _, rfl⟩ := (selector_iff env _ r y).1 h; exact ⟨_, _, rfl⟩
      · cases h
  have meaning : ∀ vs, (∃ et, Den (m.requestValues env (some r)) = .ok (.bag ⟨et, vs⟩)) ↔ MatchValues env r m vs := by
    intro vs
    unfold Match.requestValues MatchValues
    cases hd : m.designator with
    | some cd =>
      obtain ⟨cat, d⟩ := cd
      simp only [designator_den env cat d r hs]
      constructor
      · rintro ⟨et, vs', h, he⟩
        injection he with he; injection he with _ he; subst he
        exact .inl ⟨cat, d, rfl, h⟩
      · rintro (⟨c', d', he, h⟩ | ⟨h, _⟩)
        · injection he with he; injection he with h1 h2; subst h1 h2
          exact ⟨_, vs, h, rfl⟩
        · cases h
    | none =>
      cases hsel : m.selector with
      | none =>
        simp only [den_throw]
        constructor
        · rintro ⟨_, h⟩; cases h
        · rintro (⟨_, _, h, _⟩ | ⟨_, _, h, _⟩) <;> cases h
      | some s =>
        simp only [den_ofExcept, selector_iff]
        constructor
        · rintro ⟨et, vs', h, he⟩
          injection he with he; injection he with _ he; subst he
          exact .inr ⟨trivial, s, rfl, h⟩
        · rintro (⟨c', d', he, h⟩ | ⟨_, s', h1, h⟩)
          · cases he
          · injection h1 with h1; subst h1
            exact ⟨_, vs, h, rfl⟩
  unfold Match.evaluate MatchMeans
  rw [den_bind (re := env.re) hrv (by
    intro y
    split
    · exact Sim.bind (hst _) fun _ => Sim.pure _
    · exact Sim.throw _)]
  have anyIff : ∀ (xs : List PyVal) (b : Bool), xs.any PyVal.truthy = b ↔ (b = true ↔ ∃ x ∈ xs, ¬ RegardedFalse x) := by
    intro xs b
    simp only [← truthy_iff]
    rw [← List.any_eq_true]
    cases b <;> cases xs.any PyVal.truthy <;> simp
  constructor
  · rintro ⟨y, h1, h2⟩
    obtain ⟨et, vs, rfl⟩ := values y h1
    simp only at h2
    rw [den_bind (re := env.re) (hst _) (fun _ => Sim.pure _)] at h2
    obtain ⟨xs, h3, h4⟩ := h2
    injection h4 with h4
    exact ⟨vs, xs, (meaning vs).1 ⟨et, h1⟩, (matchLoop_den ..).1 h3, (anyIff xs b).1 h4⟩
  · rintro ⟨vs, xs, h1, h2, h3⟩
    obtain ⟨et, h1⟩ := (meaning vs).2 h1
    refine ⟨_, h1, ?_⟩
    simp only
    rw [den_bind (re := env.re) (hst _) (fun _ => Sim.pure _)]
    exact ⟨xs, (matchLoop_den ..).2 h2, by rw [den_pure, (anyIff xs b).2 h3]⟩

theorem evalMatches_stable (env : Env) {r : Request} (hs : StatelessPip (some r)) (ms : List Match) :
    Stable env.re (evalMatches env (some r) ms) :=
  Sim.evalMatches (envOK_refl env) (pipOK_stateless hs) ms fun m _ => debugOK_refl env m

theorem evalMatches_den (env : Env) (r : Request) (hs : StatelessPip (some r)) (ms : List Match) (bs : List Bool) :
    Den (evalMatches env (some r) ms) = .ok bs ↔ Each (MatchMeans env r) ms bs := by
  induction ms generalizing bs with
  | nil => simp [evalMatches, den_pure, eq_comm]
  | cons m ms ih =>
    simp only [evalMatches, each_cons]
    rw [den_bind (re := env.re) (match_stable env hs m) (fun _ => Sim.bind (evalMatches_stable env hs ms) fun _ => Sim.pure _)]
    constructor
    · rintro ⟨x, h1, h2⟩
      rw [den_bind (re := env.re) (evalMatches_stable env hs ms) (fun _ => Sim.pure _)] at h2
      obtain ⟨ys, h3, h4⟩ := h2
      injection h4 with h4
      exact ⟨x, ys, h4.symm, (match_den env r hs m x).1 h1, (ih ys).1 h3⟩
    · rintro ⟨x, ys, rfl, h1, h3⟩
      refine ⟨x, (match_den env r hs m x).2 h1, ?_⟩
      rw [den_bind (re := env.re) (evalMatches_stable env hs ms) (fun _ => Sim.pure _)]
      exact ⟨ys, (ih ys).2 h3, rfl⟩

theorem matchChild_stable (env : Env) {r : Request} (hs : StatelessPip (some r)) (c : TargetChild) :
    Stable env.re (matchChild env (some r) c) := Sim.bind (evalMatches_stable env hs _) fun _ => Sim.pure _

theorem sectionLoop_stable (env : Env) {r : Request} (hs : StatelessPip (some r)) (st : Bool) (cs : List TargetChild) :
    Stable env.re (sectionLoop env (some r) st cs) := by
  induction cs generalizing st with
  | nil => exact Sim.pure _
  | cons c cs ih => exact Sim.bind (matchChild_stable env hs c) fun b => ih _

theorem sectionLoop_den (env : Env) (r : Request) (hs : StatelessPip (some r)) (st : Bool) (cs : List TargetChild)
    (b : Bool) : Den (sectionLoop env (some r) st cs) = .ok b ↔
      ∃ entries, SectionMeans env r cs entries ∧
        (b = true ↔ st = true ∨ ∃ entry ∈ entries, ∀ x ∈ entry, x = true) := by
  unfold SectionMeans
  induction cs generalizing st with
  | nil =>
    simp only [sectionLoop, den_pure, each_nil, exists_eq_left]
    simp only [List.not_mem_nil, false_and, exists_false, or_false]
    cases b <;> cases st <;> simp
  | cons c cs ih =>
    simp only [sectionLoop]
    rw [den_bind (re := env.re) (matchChild_stable env hs c) (fun _ => sectionLoop_stable env hs _ _)]
    have hc : ∀ x, Den (matchChild env (some r) c) = .ok x ↔
        ∃ bs, Each (MatchMeans env r) c.matches_ bs ∧ (x = true ↔ ∀ y ∈ bs, y = true) := by
      intro x
      unfold matchChild
      rw [den_bind (re := env.re) (evalMatches_stable env hs _) (fun _ => Sim.pure _)]
      simp only [evalMatches_den env r hs, den_pure]
      constructor
      · rintro ⟨bs, h1, h2⟩
        injection h2 with h2; subst h2
        exact ⟨bs, h1, by simp⟩
      · rintro ⟨bs, h1, h2⟩
        refine ⟨bs, h1, ?_⟩
        congr 1
        rw [Bool.eq_iff_iff, h2]; simp
    simp only [hc, ih]
    constructor
    · rintro ⟨x, ⟨bs, h1, h2⟩, entries, h3, h4⟩
      refine ⟨bs :: entries, ⟨bs, entries, rfl, h1, h3⟩, ?_⟩
      rw [h4]
      simp only [List.mem_cons, exists_eq_or_imp, ← h2]
      cases x <;> cases st <;> simp
    · rintro ⟨_, ⟨bs, entries, rfl, h1, h3⟩, h4⟩
      refine ⟨bs.all id, ⟨bs, h1, by simp⟩, entries, h3, ?_⟩
      rw [h4]
      have : bs.all id = true ↔ ∀ y ∈ bs, y = true := by simp
      simp only [List.mem_cons, exists_eq_or_imp, ← this]
      cases bs.all id <;> cases st <;> simp

theorem section_stable (env : Env) {r : Request} (hs : StatelessPip (some r)) (cs : List TargetChild) :
    Stable env.re (matchSection env (some r) cs) :=
  Sim.matchSection (envOK_refl env) (pipOK_stateless hs) cs fun _ _ m _ => debugOK_refl env m

theorem section_den (env : Env) (r : Request) (hs : StatelessPip (some r)) (cs : List TargetChild) (b : Bool) :
    Den (matchSection env (some r) cs) = .ok b ↔
      ∃ entries, SectionMeans env r cs entries ∧ (b = true ↔ SectionMatches entries) := by
  unfold matchSection SectionMatches
  cases cs with
  | nil =>
    simp only [List.length_nil, if_true, den_pure, SectionMeans, each_nil, exists_eq_left]
    cases b <;> simp
  | cons c cs =>
    rw [if_neg (by simp), sectionLoop_den env r hs]
    constructor
    · rintro ⟨entries, h1, h2⟩
      refine ⟨entries, h1, ?_⟩
      obtain ⟨bs, es, rfl, _⟩ := h1
      rw [h2]; simp
    · rintro ⟨entries, h1, h2⟩
      refine ⟨entries, h1, ?_⟩
      obtain ⟨bs, es, rfl, _⟩ := h1
      rw [h2]; simp

theorem target_stable (env : Env) {r : Request} (hs : StatelessPip (some r)) (t : Option Target) :
    Stable env.re (targetMatch env t (some r)) :=
  Sim.targetMatch (envOK_refl env) (pipOK_stateless hs) t fun m _ => debugOK_refl env m

theorem target_den (env : Env) (r : Request) (hs : StatelessPip (some r)) (t : Option Target) (b : Bool) :
    Den (targetMatch env t (some r)) = .ok b ↔ Applies env r t b := by
  unfold targetMatch Applies
  cases t with
  | none => simp [den_pure, eq_comm]
  | some t =>
    have h4 : ∀ s r' a : Bool, Stable env.re (matchSection env (some r) t.environments >>= fun e =>
        pure (s && r' && a && e)) := fun s r' a => Sim.bind (section_stable env hs _) fun _ => Sim.pure _
    have h3 : ∀ s r' : Bool, Stable env.re (matchSection env (some r) t.actions >>= fun a =>
        matchSection env (some r) t.environments >>= fun e => pure (s && r' && a && e)) :=
      fun s r' => Sim.bind (section_stable env hs _) fun a => h4 s r' a
    have h2 : ∀ s : Bool, Stable env.re (matchSection env (some r) t.resources >>= fun r' =>
        matchSection env (some r) t.actions >>= fun a =>
        matchSection env (some r) t.environments >>= fun e => pure (s && r' && a && e)) :=
      fun s => Sim.bind (section_stable env hs _) fun a => h3 s a
    simp only [Target.match_]
    rw [den_bind (section_stable env hs _) h2]
    constructor
    · rintro ⟨x1, e1, h⟩
      rw [den_bind (section_stable env hs _) (h3 _)] at h
      obtain ⟨x2, e2, h⟩ := h
      rw [den_bind (section_stable env hs _) (h4 _ _)] at h
      obtain ⟨x3, e3, h⟩ := h
      rw [den_bind (re := env.re) (section_stable env hs _) (fun _ => Sim.pure _)] at h
      obtain ⟨x4, e4, h⟩ := h
      injection h with h
      obtain ⟨s1, a1, b1⟩ := (section_den env r hs _ _).1 e1
      obtain ⟨s2, a2, b2⟩ := (section_den env r hs _ _).1 e2
      obtain ⟨s3, a3, b3⟩ := (section_den env r hs _ _).1 e3
      obtain ⟨s4, a4, b4⟩ := (section_den env r hs _ _).1 e4
      refine ⟨s1, s2, s3, s4, a1, a2, a3, a4, ?_⟩
      rw [← b1, ← b2, ← b3, ← b4, ← h]
      simp [and_assoc]
    · rintro ⟨s1, s2, s3, s4, a1, a2, a3, a4, h⟩
      classical
      have hd : ∀ es : List (List Bool), (decide (SectionMatches es) = true ↔ SectionMatches es) := by simp
      refine ⟨_, (section_den env r hs _ _).2 ⟨s1, a1, hd s1⟩, ?_⟩
      rw [den_bind (section_stable env hs _) (h3 _)]
      refine ⟨_, (section_den env r hs _ _).2 ⟨s2, a2, hd s2⟩, ?_⟩
      rw [den_bind (section_stable env hs _) (h4 _ _)]
      refine ⟨_, (section_den env r hs _ _).2 ⟨s3, a3, hd s3⟩, ?_⟩
      rw [den_bind (re := env.re) (section_stable env hs _) (fun _ => Sim.pure _)]
      refine ⟨_, (section_den env r hs _ _).2 ⟨s4, a4, hd s4⟩, ?_⟩
      rw [den_pure]
      congr 1
      rw [Bool.eq_iff_iff, h]
      simp [and_assoc]

/-! ## Rules -/

theorem rule_stable (env : Env) {r : Request} (hs : StatelessPip (some r)) (rule : Rule) :
    Stable env.re (rule.evaluate env (some r)) :=
  Sim.rule (envOK_refl env) (pipOK_stateless hs) rule fun m _ => debugOK_refl env m

theorem condition_den (env : Env) (r : Request) (hs : StatelessPip (some r)) (c : Option Condition) (b : Bool) :
    Holds env r c b ↔ ∃ x : PyVal, Den (match c with
      | some c => c.evaluate env (some r)
      | none => pure (.native (.bool true))) = .ok x ∧ b = x.truthy := by
  have boolIff : ∀ x : PyVal, (b = true ↔ ¬ RegardedFalse x) ↔ b = x.truthy := by
    intro x
    rw [← truthy_iff]
    cases b <;> cases x.truthy <;> simp
  unfold Holds
  simp only [boolIff]
  cases c with
  | none =>
    simp only [den_pure]
    constructor
    · rintro rfl; exact ⟨_, rfl, rfl⟩
    · rintro ⟨_, h, rfl⟩; injection h with h; subst h; rfl
  | some c =>
    simp only [Condition.evaluate]
    cases hc : c.expression with
    | none =>
      simp only [den_throw]
      constructor
      · rintro ⟨_, _, h, _⟩; cases h
      · rintro ⟨_, h, _⟩; cases h
    | some e =>
      simp only [expr_den env r hs]
      constructor
      · rintro ⟨_, x, h, h1, h2⟩; injection h with h; subst h; exact ⟨x, h1, h2⟩
      · rintro ⟨x, h1, h2⟩; exact ⟨e, x, rfl, h1, h2⟩

theorem applies_unique {env : Env} {r : Request} (hs : StatelessPip (some r)) {t : Option Target} {b b' : Bool}
    (h : Applies env r t b) (h' : Applies env r t b') : b = b' := by
  rw [← target_den env r hs] at h h'
  rw [h] at h'; injection h'

theorem holds_unique {env : Env} {r : Request} (hs : StatelessPip (some r)) {c : Option Condition} {b b' : Bool}
    (h : Holds env r c b) (h' : Holds env r c b') : b = b' := by
  rw [condition_den env r hs] at h h'
  obtain ⟨x, h1, rfl⟩ := h
  obtain ⟨x', h1', rfl⟩ := h'
  rw [h1] at h1'; injection h1' with h1'; rw [h1']

theorem ruleBody_den (env : Env) (r : Request) (hs : StatelessPip (some r)) (rule : Rule) (e : Effect)
    (he : rule.effect = some e) (d : Decision) :
    Den (rule.body env (some r)) = .ok d ↔
      (Applies env r rule.target false ∧ d = .notApplicable) ∨
      (Applies env r rule.target true ∧ Holds env r rule.condition false ∧ d = .notApplicable) ∨
      (Applies env r rule.target true ∧ Holds env r rule.condition true ∧ d = effectDecision e) := by
  have hcond : Stable env.re (match rule.condition with
      | some c => c.evaluate env (some r)
      | none => pure (.native (.bool true))) := by
    cases rule.condition with
    | none => exact Sim.pure _
    | some c =>
      simp only [Condition.evaluate]
      cases c.expression with
      | none => exact Sim.throw _
      | some e => exact expr_stable env hs e
  have hed : e.toDecision = effectDecision e := by cases e <;> rfl
  have htail : ∀ st : PyVal, Stable env.re (if st.truthy = true then (pure e.toDecision : EvalM Decision)
      else pure .notApplicable) := by
    intro st; split <;> exact Sim.pure _
  have hrest : ∀ tm : Bool, Stable env.re (if (!tm) = true then (pure .notApplicable : EvalM Decision) else ((match rule.condition with
        | some c => c.evaluate env (some r)
        | none => pure (.native (.bool true))) >>= fun status =>
      if status.truthy = true then pure e.toDecision else pure .notApplicable)) := by
    intro tm
    split
    · exact Sim.pure _
    · exact Sim.bind hcond htail
  have e0 : rule.body env (some r) = (targetMatch env rule.target (some r) >>= fun tm =>
      if (!tm) = true then (pure .notApplicable : EvalM Decision) else ((match rule.condition with
        | some c => c.evaluate env (some r)
        | none => pure (.native (.bool true))) >>= fun status =>
      if status.truthy = true then pure e.toDecision else pure .notApplicable)) := by
    unfold Rule.body
    simp only [he]
    cases rule.condition <;> rfl
  rw [e0, den_bind (target_stable env hs _) hrest]
  constructor
  · rintro ⟨tm, h1, h2⟩
    rw [target_den env r hs] at h1
    cases tm with
    | false =>
      injection h2 with h2
      exact .inl ⟨h1, h2.symm⟩
    | true =>
      simp only [Bool.not_true, Bool.false_eq_true, if_false] at h2
      rw [den_bind hcond htail] at h2
      obtain ⟨st, h3, h4⟩ := h2
      have hh : Holds env r rule.condition st.truthy := (condition_den env r hs _ _).2 ⟨st, h3, rfl⟩
      cases ht : st.truthy with
      | true =>
        rw [ht] at h4 hh
        injection h4 with h4
        exact .inr (.inr ⟨h1, hh, by rw [← h4, hed]⟩)
      | false =>
        rw [ht] at h4 hh
        injection h4 with h4
        exact .inr (.inl ⟨h1, hh, h4.symm⟩)
  · rintro (⟨h1, rfl⟩ | ⟨h1, h2, rfl⟩ | ⟨h1, h2, rfl⟩)
    · exact ⟨false, (target_den env r hs _ _).2 h1, rfl⟩
    · refine ⟨true, (target_den env r hs _ _).2 h1, ?_⟩
      simp only [Bool.not_true, Bool.false_eq_true, if_false]
      rw [den_bind hcond htail]
      obtain ⟨x, h3, h4⟩ := (condition_den env r hs _ _).1 h2
      exact ⟨x, h3, by rw [← h4]; rfl⟩
    · refine ⟨true, (target_den env r hs _ _).2 h1, ?_⟩
      simp only [Bool.not_true, Bool.false_eq_true, if_false]
      rw [den_bind hcond htail]
      obtain ⟨x, h3, h4⟩ := (condition_den env r hs _ _).1 h2
      exact ⟨x, h3, by rw [← h4, ← hed]; rfl⟩

theorem rule_den (env : Env) (r : Request) (hs : StatelessPip (some r)) (rule : Rule) (he : rule.effect ≠ none)
    (d : Decision) : Den (rule.evaluate env (some r)) = .ok d ↔ RuleMeans env r rule d := by
  obtain ⟨e, he⟩ := Option.ne_none_iff_exists'.1 he
  unfold Rule.evaluate
  rw [den_catchAll]
  simp only [ne_eq, ruleBody_den env r hs rule e he]
  constructor
  · rintro ((⟨h, rfl⟩ | ⟨h, h', rfl⟩ | ⟨h, h', rfl⟩) | ⟨h, rfl⟩)
    · exact .targetFalse h
    · exact .conditionFalse h h'
    · exact .effect h h' he
    · by_cases h1 : ∃ b, Applies env r rule.target b
      · obtain ⟨b, hb⟩ := h1
        cases b with
        | false => exact absurd (.inl ⟨hb, rfl⟩) (h .notApplicable)
        | true =>
          refine .conditionFails hb ?_
          intro b hb'
          cases b with
          | false => exact h .notApplicable (.inr (.inl ⟨hb, hb', rfl⟩))
          | true => exact h _ (.inr (.inr ⟨hb, hb', rfl⟩))
      · exact .targetFails fun b hb => h1 ⟨b, hb⟩
  · intro h
    cases h with
    | targetFalse h => exact .inl (.inl ⟨h, rfl⟩)
    | conditionFalse h h' => exact .inl (.inr (.inl ⟨h, h', rfl⟩))
    | effect h h' h2 =>
      rw [he] at h2; injection h2 with h2; subst h2
      exact .inl (.inr (.inr ⟨h, h', rfl⟩))
    | targetFails h =>
      refine .inr ⟨?_, rfl⟩
      rintro d' (⟨h', _⟩ | ⟨h', _⟩ | ⟨h', _⟩) <;> exact h _ h'
    | conditionFails h h' =>
      refine .inr ⟨?_, rfl⟩
      rintro d' (⟨h1, _⟩ | ⟨_, h1, _⟩ | ⟨_, h1, _⟩)
      · cases applies_unique hs h h1
      · exact h' _ h1
      · exact h' _ h1

/-! ## Policies -/

/-- Stable computations run to their results in any coherent world. -/
theorem runs_of_den {α} {cs : List (EvalM α)} {ds : List α} (hst : ∀ c ∈ cs, Stable re c)
    (h : Each (fun c d => Den c = .ok d) cs ds) {w : World} (hw : Coh re w) : ∃ w', Runs cs w ds w' := by
  induction cs generalizing ds w with
  | nil => rw [each_nil] at h; subst h; exact ⟨w, .nil w⟩
  | cons c cs ih =>
    obtain ⟨d, ds', rfl, h1, h2⟩ := h
    have hc := hst c (by simp)
    have h3 := hc.den hw
    rw [h1] at h3
    have h4 := (hc w w ⟨hw, hw, trivial⟩).2.1
    rcases hcw : c w with ⟨x, w1⟩
    rw [hcw] at h3 h4
    simp only at h3; subst h3
    obtain ⟨w2, hr⟩ := ih (fun c hc => hst c (by simp [hc])) h2 h4
    exact ⟨w2, .cons hcw hr⟩

theorem each_map {α β γ} {R : β → γ → Prop} (f : α → β) (l : List α) (l' : List γ) :
    Each R (l.map f) l' ↔ Each (fun a c => R (f a) c) l l' := by
  induction l generalizing l' with
  | nil => simp
  | cons a l ih => simp [each_cons, ih]

theorem each_total {α β} {R : α → β → Prop} {l : List α} (h : ∀ a ∈ l, ∃ b, R a b) : ∃ l', Each R l l' := by
  induction l with
  | nil => exact ⟨[], rfl⟩
  | cons a l ih =>
    obtain ⟨b, hb⟩ := h a (by simp)
    obtain ⟨l', hl⟩ := ih fun a ha => h a (by simp [ha])
    exact ⟨b :: l', b, l', rfl, hb, hl⟩

theorem each_congr_mem {α β} {R S : α → β → Prop} {l : List α} {l' : List β} (h : ∀ a ∈ l, ∀ b, R a b ↔ S a b) :
    Each R l l' ↔ Each S l l' := by
  induction l generalizing l' with
  | nil => simp
  | cons a l ih =>
    simp only [each_cons]
    have := fun l' => ih (l' := l') fun a ha => h a (by simp [ha])
    simp only [h a (by simp), this]

theorem den_exists (m : EvalM Decision) (h : ∀ w, ∃ d w', m w = (.ok d, w')) : ∃ d, Den m = .ok d := by
  obtain ⟨d, w', h⟩ := h start
  exact ⟨d, by rw [Den, h]⟩

/-- The combining algorithms on stable children. -/
theorem combineRules_den (env : Env) (r : Request) (hs : StatelessPip (some r)) (rules : List Rule)
    (he : ∀ rule ∈ rules, rule.effect ≠ none) (alg : Alg) (ds : List Decision)
    (h : Each (RuleMeans env r) rules ds) :
    Den (Xacml.combineRules (some alg) (rules.map (Rule.child env (some r)))) =
      .ok (Spec.combineRules alg (rules.map (·.effect)) ds) := by
  have hm : (rules.map (Rule.child env (some r))).map RuleChild.run = rules.map (Rule.evaluate env · (some r)) := by
    simp [Rule.child, Function.comp_def]
  have hme : (rules.map (Rule.child env (some r))).map RuleChild.effect = rules.map (·.effect) := by
    simp [Rule.child, Function.comp_def]
  have hr : ∃ w', Runs ((rules.map (Rule.child env (some r))).map RuleChild.run) start ds w' := by
    rw [hm]
    refine runs_of_den (re := env.re) ?_ ?_ coh_start
    · intro c hc
      obtain ⟨rule, _, rfl⟩ := List.mem_map.1 hc
      exact rule_stable env hs rule
    · rw [each_map]
      exact (each_congr_mem fun rule hrule d => rule_den env r hs rule (he rule hrule) d).2 h
  obtain ⟨w', hr⟩ := hr
  have hce : ∀ c ∈ rules.map (Rule.child env (some r)), c.effect ≠ none := by
    intro c hc
    obtain ⟨rule, hrule, rfl⟩ := List.mem_map.1 hc
    exact he rule hrule
  unfold Den
  cases alg with
  | denyOverrides =>
    obtain ⟨w3, h1, _⟩ := denyOverridesRules_spec _ {} hr hce
    simp only [Xacml.combineRules, h1, hme, Spec.combineRules, denyTable, ruleDenyOverrides]
    simp
  | permitOverrides =>
    obtain ⟨w3, h1, _⟩ := permitOverridesRules_spec _ {} hr hce
    simp only [Xacml.combineRules, h1, hme, Spec.combineRules, permitTable, rulePermitOverrides]
    simp
  | firstApplicable =>
    obtain ⟨w3, h1, _⟩ := firstApplicable_spec _ hr
    simp only [Xacml.combineRules, h1, Spec.combineRules]

theorem combinePolicies_den (cs : List (EvalM Decision)) (hst : ∀ c ∈ cs, Stable re c) (alg : Alg)
    (ds : List Decision) (h : Each (fun c d => Den c = .ok d) cs ds) :
    Den (Xacml.combinePolicies (some alg) cs) = .ok (Spec.combinePolicies alg ds) := by
  obtain ⟨w', hr⟩ := runs_of_den hst h coh_start
  unfold Den
  cases alg with
  | denyOverrides =>
    obtain ⟨w3, h1, _⟩ := denyOverridesPolicies_spec _ false hr
    simp only [Xacml.combinePolicies, h1, Spec.combinePolicies, policyDenyOverrides]
    simp
  | permitOverrides =>
    obtain ⟨w3, h1, _⟩ := permitOverridesPolicies_spec _ false false hr
    simp only [Xacml.combinePolicies, h1, Spec.combinePolicies, policyPermitOverrides]
    simp
  | firstApplicable =>
    obtain ⟨w3, h1, _⟩ := firstApplicable_spec _ hr
    simp only [Xacml.combinePolicies, h1, Spec.combinePolicies]

theorem policyBase_den (env : Env) (r : Request) (hs : StatelessPip (some r)) (hdr : Header)
    (m : EvalM Decision) (hm : Stable env.re m) (d0 : Decision) (hd : Den m = .ok d0) (d : Decision) :
    Den (policyBaseEvaluate env hdr (some r) m) = .ok d ↔
      (Applies env r hdr.target true ∧ d = d0) ∨ (Applies env r hdr.target false ∧ d = .notApplicable) ∨
      ((∀ b, ¬ Applies env r hdr.target b) ∧ d = .indeterminate) := by
  unfold policyBaseEvaluate
  have hk : ∀ tm : Bool, Stable env.re (if (!tm) = true then pure .notApplicable else m) := by
    intro tm; split
    · exact Sim.pure _
    · exact hm
  rw [den_catchAll]
  simp only [ne_eq, den_bind (target_stable env hs hdr.target) hk, target_den env r hs]
  constructor
  · rintro (⟨b, h1, h2⟩ | ⟨h, rfl⟩)
    · cases b with
      | true =>
        have h2 : Den m = .ok d := h2
        rw [hd] at h2; injection h2 with h2
        exact .inl ⟨h1, h2.symm⟩
      | false =>
        injection h2 with h2
        exact .inr (.inl ⟨h1, h2.symm⟩)
    · refine .inr (.inr ⟨?_, rfl⟩)
      intro b hb
      cases b with
      | true => exact h d0 ⟨true, hb, hd⟩
      | false => exact h .notApplicable ⟨false, hb, rfl⟩
  · rintro (⟨h, rfl⟩ | ⟨h, rfl⟩ | ⟨h, rfl⟩)
    · exact .inl ⟨true, h, hd⟩
    · exact .inl ⟨false, h, rfl⟩
    · exact .inr ⟨fun d' ⟨b, hb, _⟩ => h b hb, rfl⟩

theorem policy_stable (env : Env) {r : Request} (hs : StatelessPip (some r)) (p : PolicyNode) :
    Stable env.re (p.evaluate env (some r)) :=
  Sim.policy (envOK_refl env) (pipOK_stateless hs) p fun m _ => debugOK_refl env m

mutual
theorem policy_den (env : Env) (r : Request) (hs : StatelessPip (some r)) : (p : PolicyNode) → Complete p →
    (d : Decision) → (Den (p.evaluate env (some r)) = .ok d ↔ PolicyMeans env r p d)
  | .policy hdr rules, hc, d => by
    unfold Complete at hc
    obtain ⟨alg, ha⟩ := Option.ne_none_iff_exists'.1 hc.1
    obtain ⟨ds, hds⟩ : ∃ ds, Each (RuleMeans env r) rules ds := each_total fun rule hrule => by
      obtain ⟨d, hd⟩ := den_exists _ (rule_evaluate_ok env rule (some r))
      exact ⟨d, (rule_den env r hs rule (hc.2 rule hrule) d).1 hd⟩
    unfold PolicyNode.evaluate
    rw [ha, policyBase_den env r hs hdr _
      (Sim.combineRules (Sim.rules (envOK_refl env) (pipOK_stateless hs) rules fun _ _ m _ => debugOK_refl env m) _) _
      (combineRules_den env r hs rules hc.2 alg ds hds)]
    constructor
    · rintro (⟨h, rfl⟩ | ⟨h, rfl⟩ | ⟨h, rfl⟩)
      · exact .rules h ha hds
      · exact .policyTargetFalse h
      · exact .policyTargetFails h
    · intro h
      cases h with
      | rules h h1 h2 =>
        rw [ha] at h1; injection h1 with h1; subst h1
        refine .inl ⟨h, ?_⟩
        have e1 := combineRules_den env r hs rules hc.2 alg ds hds
        have e2 := combineRules_den env r hs rules hc.2 alg _ h2
        rw [e1] at e2; injection e2 with e2; exact e2.symm
      | policyTargetFalse h => exact .inr (.inl ⟨h, rfl⟩)
      | policyTargetFails h => exact .inr (.inr ⟨h, rfl⟩)
  | .policySet hdr ps, hc, d => by
    unfold Complete at hc
    obtain ⟨alg, ha⟩ := Option.ne_none_iff_exists'.1 hc.1
    have hst : ∀ c ∈ PolicyNode.evaluators env (some r) ps, Stable env.re c := by
      intro c hc'
      rw [evaluators_eq_map] at hc'
      obtain ⟨p, _, rfl⟩ := List.mem_map.1 hc'
      exact policy_stable env hs p
    obtain ⟨ds, hds⟩ : ∃ ds, Each (fun c d => Den c = .ok d) (PolicyNode.evaluators env (some r) ps) ds :=
      each_total fun c hc' => by
        rw [evaluators_eq_map] at hc'
        obtain ⟨p, _, rfl⟩ := List.mem_map.1 hc'
        exact den_exists _ (policy_evaluate_ok env p (some r))
    unfold PolicyNode.evaluate
    rw [ha, policyBase_den env r hs hdr _
      (Sim.combinePolicies (Sim.policies (envOK_refl env) (pipOK_stateless hs) ps fun m _ => debugOK_refl env m) _) _
      (combinePolicies_den (re := env.re) _ hst alg ds hds)]
    have hm := policies_den env r hs ps hc.2
    constructor
    · rintro (⟨h, rfl⟩ | ⟨h, rfl⟩ | ⟨h, rfl⟩)
      · exact .policies h ha ((hm ds).1 hds)
      · exact .setTargetFalse h
      · exact .setTargetFails h
    · intro h
      cases h with
      | policies h h1 h2 =>
        rw [ha] at h1; injection h1 with h1; subst h1
        refine .inl ⟨h, ?_⟩
        have e1 := combinePolicies_den (re := env.re) _ hst alg ds hds
        have e2 := combinePolicies_den (re := env.re) _ hst alg _ ((hm _).2 h2)
        rw [e1] at e2; injection e2 with e2; exact e2.symm
      | setTargetFalse h => exact .inr (.inl ⟨h, rfl⟩)
      | setTargetFails h => exact .inr (.inr ⟨h, rfl⟩)
theorem policies_den (env : Env) (r : Request) (hs : StatelessPip (some r)) : (ps : List PolicyNode) →
    AllComplete ps → (ds : List Decision) →
    (Each (fun c d => Den c = .ok d) (PolicyNode.evaluators env (some r) ps) ds ↔ PoliciesMean env r ps ds)
  | [], _, ds => by
    unfold PolicyNode.evaluators
    rw [each_nil]
    constructor
    · rintro rfl; exact .nil
    · intro h; cases h; rfl
  | p :: ps, hc, ds => by
    unfold AllComplete at hc
    unfold PolicyNode.evaluators
    rw [each_cons]
    have h1 := policy_den env r hs p hc.1
    have h2 := policies_den env r hs ps hc.2
    constructor
    · rintro ⟨d, ds', rfl, h3, h4⟩
      exact .cons ((h1 d).1 h3) ((h2 ds').1 h4)
    · intro h
      cases h with
      | cons h3 h4 => exact ⟨_, _, rfl, (h1 _).2 h3, (h2 _).2 h4⟩
end

end Xacml
