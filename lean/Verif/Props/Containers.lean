import Verif.Lemmas.Dict
import Verif.Lemmas.List
import Verif.Spec.Containers
import Verif.Spec.Samples

/-!
# C37, C38, C40–C43: containers, the registry of attribute value classes, attribute values
-/
namespace Xacml
open Spec

/-! ## C40: TypedList -/

/-- C40: every item of a list built by checked calls is of the element type. -/
theorem C40_homogeneous {α} (ok : α → Bool) (es : List (TLEvent α)) (h : ∀ e ∈ es, checkedCall e) :
    ∀ x ∈ tlRun ok [] es, ok x = true := by
  induction es using List.reverseRec' with
  | h0 => simp [tlRun]
  | h1 es e ih =>
    have ih := ih fun e he => h e (List.mem_append_left _ he)
    have he := h e (by simp)
    have hr : tlRun ok [] (es ++ [e]) = (e.step ok (tlRun ok [] es)).2 := by simp [tlRun]
    rw [hr]
    cases e with
    | append x =>
      simp only [TLEvent.step]
      split
      · intro y hy
        rcases List.mem_append.mp hy with hy | hy
        · exact ih y hy
        · simp at hy; subst hy; assumption
      · exact ih
    | extend it =>
      simp only [TLEvent.step]
      by_cases hok : typeChecks ok it.items = true
      · rw [if_pos hok]
        intro y hy
        rcases List.mem_append.mp hy with hy | hy
        · exact ih y hy
        · split at hy
          · simp at hy
          · exact List.all_eq_true.mp hok y hy
      · rw [if_neg hok]; exact ih
    | iadd it =>
      simp only [TLEvent.step]
      by_cases hok : typeChecks ok it.items = true
      · rw [if_pos hok]
        intro y hy
        rcases List.mem_append.mp hy with hy | hy
        · exact ih y hy
        · split at hy
          · simp at hy
          · exact List.all_eq_true.mp hok y hy
      · rw [if_neg hok]; exact ih
    | insert i x => exact he.elim
    | setItem i x => exact he.elim
    | delItem i =>
      simp only [TLEvent.step]
      split
      · intro y hy; exact ih y (List.mem_of_mem_eraseIdx hy)
      · exact ih
    | clear => simp [TLEvent.step]
    | reverse => intro y hy; exact ih y (List.mem_reverse.mp hy)

/-- C40: a call that raises changes nothing. -/
theorem C40_atomic {α} (ok : α → Bool) (l : List α) (e : TLEvent α) (x : Exc)
    (h : (e.step ok l).1 = .error x) : (e.step ok l).2 = l := by
  cases e <;> simp only [TLEvent.step] at h ⊢ <;> first | (cases h; done) | (split <;> simp_all)

/-- C40: an update with a wrong item raises TypeError. -/
theorem C40_rejects {α} (ok : α → Bool) (l : List α) (it : Iter α) (x : α) (hx : ok x = false) :
    TLEvent.step ok l (.append x) = (.error .typeError, l) ∧
    (x ∈ it.items → TLEvent.step ok l (.extend it) = (.error .typeError, l) ∧
      TLEvent.step ok l (.iadd it) = (.error .typeError, l)) := by
  refine ⟨by simp [TLEvent.step, hx], fun hm => ?_⟩
  have : typeChecks ok it.items = false := by
    rw [typeChecks, List.all_eq_false]
    exact ⟨x, hm, by simp [hx]⟩
  simp [TLEvent.step, this]

/-- C40, partial: a correct update adds exactly the given items in order, unless they come from a
one-shot iterator. -/
theorem C40_adds_partial {α} (ok : α → Bool) (l : List α) (it : Iter α) (x : α)
    (hx : ok x = true) (hit : ∀ y ∈ it.items, ok y = true) (hs : it.oneShot = false) :
    TLEvent.step ok l (.append x) = (.ok (), l ++ [x]) ∧
    TLEvent.step ok l (.extend it) = (.ok (), l ++ it.items) ∧
    TLEvent.step ok l (.iadd it) = (.ok (), l ++ it.items) := by
  have : typeChecks ok it.items = true := List.all_eq_true.mpr hit
  simp [TLEvent.step, hx, this, hs]

/-- C40 does not hold for generators: a correct update from one adds nothing and raises nothing. -/
theorem C40_violated {α} (ok : α → Bool) (l xs : List α) (hit : ∀ y ∈ xs, ok y = true) :
    TLEvent.step ok l (.extend ⟨true, xs⟩) = (.ok (), l) ∧ TLEvent.step ok l (.iadd ⟨true, xs⟩) = (.ok (), l) := by
  have : typeChecks ok xs = true := List.all_eq_true.mpr hit
  simp [TLEvent.step, this]

/-- The inherited `insert` and item assignment are not checked: any object can get into the list. -/
theorem C40_unchecked_calls {α} (ok : α → Bool) (good bad : α) (hg : ok good = true) :
    bad ∈ tlRun ok [] [.insert 0 bad] ∧ bad ∈ tlRun ok [] [.append good, .setItem 0 bad] := by
  simp [tlRun, TLEvent.step, hg]

/-- The bags of the evaluation model are TypedLists: `extend` on a bag with an element type is the
TypedList call with the test "is an attribute value of that class". -/
theorem bag_extend_typedList (b : Bag) (c : AVClass) (hc : b.elementType = some c) (it : PyIter) :
    (match b.extend it with
      | .ok b' => (Except.ok (), b'.items.map PyVal.av)
      | .error e => (.error e, b.items.map .av)) =
    TLEvent.step (fun x => x.isInst c) (b.items.map .av) (.extend ⟨it.oneShot, it.items⟩) := by
  have hcheck : ∀ xs : List PyVal,
      (xs.all (fun x => x.isInst c) = true → ∃ vs, checkItems (some c) xs = .ok vs ∧ vs.map .av = xs) ∧
      (xs.all (fun x => x.isInst c) = false → checkItems (some c) xs = .error .typeError) := by
    intro xs
    induction xs with
    | nil => simp [checkItems]
    | cons x xs ih =>
      cases x with
      | av v =>
        simp only [List.all_cons, Bool.and_eq_true, Bool.and_eq_false_iff, checkItems, PyVal.isInst]
        by_cases hv : v.isInst c = true
        · simp only [hv, true_and, reduceCtorEq, false_or, if_true]
          refine ⟨fun h => ?_, fun h => ?_⟩
          · obtain ⟨vs, h1, h2⟩ := ih.1 h
            rw [h1]; exact ⟨v :: vs, rfl, by simp [h2]⟩
          · rw [ih.2 h]
        · simp only [Bool.not_eq_true] at hv
          simp [hv]
      | _ => simp [checkItems, PyVal.isInst]
  simp only [Bag.extend, hc, TLEvent.step, typeChecks]
  cases hb : it.items.all (fun x => x.isInst c) with
  | true =>
    obtain ⟨vs, h1, h2⟩ := (hcheck it.items).1 hb
    rw [h1]
    simp only [if_true]
    cases it.oneShot <;> simp [h2]
  | false => rw [(hcheck it.items).2 hb]; simp

/-! ## C41: UniqList -/

/-- C41 does not hold: an iterable with a repeated item puts it in twice. -/
theorem C41_violated : ¬ (ulRun [] [ULEvent.extend ⟨false, [1, 1]⟩] : List Nat).Nodup := by decide

/-- C41, what holds of every history: the list contains exactly the items offered. -/
theorem C41_contains {α} [DecidableEq α] (es : List (ULEvent α)) (x : α) :
    x ∈ ulRun [] es ↔ x ∈ es.flatMap offered := by
  induction es using List.reverseRec' with
  | h0 => simp [ulRun]
  | h1 es e ih =>
    have hr : ulRun [] (es ++ [e]) = e.step (ulRun [] es) := by simp [ulRun]
    rw [hr, List.flatMap_append, List.mem_append, ← ih]
    have hany : ∀ y, ((ulRun [] es).any (· == y)) = true ↔ y ∈ ulRun [] es := by
      intro y; simp [List.any_eq_true]
    cases e with
    | append y =>
      simp only [ULEvent.step, List.flatMap_cons, List.flatMap_nil, List.append_nil, offered, List.mem_singleton]
      by_cases hy : y ∈ ulRun [] es
      · simp only [(hany y).mpr hy, if_true]
        exact ⟨.inl, fun h => h.elim id fun h => h ▸ hy⟩
      · have : ((ulRun [] es).any (· == y)) = false := by
          rw [← Bool.not_eq_true]; exact fun h => hy ((hany y).mp h)
        simp [this]
    | extend it =>
      simp only [ULEvent.step, List.flatMap_cons, List.flatMap_nil, List.append_nil, offered, List.mem_append,
        List.mem_filter, Bool.not_eq_true', ← Bool.not_eq_true, hany]
      by_cases hx : x ∈ ulRun [] es <;> simp [hx]
    | iadd it =>
      simp only [ULEvent.step, List.flatMap_cons, List.flatMap_nil, List.append_nil, offered, List.mem_append,
        List.mem_filter, Bool.not_eq_true', ← Bool.not_eq_true, hany]
      by_cases hx : x ∈ ulRun [] es <;> simp [hx]

theorem mem_firstOffers {α} [DecidableEq α] (l : List α) (x : α) : x ∈ firstOffers l ↔ x ∈ l := by
  induction l with
  | nil => simp [firstOffers]
  | cons a l ih =>
    simp only [firstOffers, List.mem_cons, List.mem_filter, ih, decide_eq_true_eq, ne_eq]
    by_cases hx : x = a <;> simp [hx]

theorem firstOffers_nodup {α} [DecidableEq α] (l : List α) : (firstOffers l).Nodup := by
  induction l with
  | nil => simp [firstOffers]
  | cons a l ih =>
    rw [firstOffers, List.nodup_cons]
    exact ⟨by simp, ih.filter _⟩

theorem firstOffers_of_nodup {α} [DecidableEq α] (l : List α) (h : l.Nodup) : firstOffers l = l := by
  induction l with
  | nil => rfl
  | cons a l ih =>
    rw [List.nodup_cons] at h
    rw [firstOffers, ih h.2, List.filter_eq_self.mpr]
    intro x hx
    simp only [decide_eq_true_eq, ne_eq]
    rintro rfl
    exact h.1 hx

theorem firstOffers_append {α} [DecidableEq α] (a b : List α) :
    firstOffers (a ++ b) = firstOffers a ++ (firstOffers b).filter (· ∉ a) := by
  induction a with
  | nil => simpa [firstOffers] using (List.filter_eq_self.mpr (by simp)).symm
  | cons x a ih =>
    simp only [List.cons_append, firstOffers, ih, List.filter_append, List.filter_filter, List.cons.injEq, true_and,
      List.append_cancel_left_eq]
    congr 1
    funext y
    by_cases hy : y = x <;> simp [hy]

/-- C41, partial: if no call repeats an item within its own iterable, the list has each item offered
once, in the order of first offer. (Missing: see `C41_violated`.) -/
theorem C41_partial {α} [DecidableEq α] (es : List (ULEvent α)) (h : ∀ e ∈ es, (offered e).Nodup) :
    ulRun [] es = firstOffers (es.flatMap offered) := by
  induction es using List.reverseRec' with
  | h0 => rfl
  | h1 es e ih =>
    have ih := ih fun e he => h e (List.mem_append_left _ he)
    have he := h e (by simp)
    have hr : ulRun [] (es ++ [e]) = e.step (ulRun [] es) := by simp [ulRun]
    have hmem : ∀ x, x ∈ ulRun [] es ↔ x ∈ es.flatMap offered := C41_contains es
    rw [hr, List.flatMap_append, firstOffers_append, ← ih]
    simp only [List.flatMap_cons, List.flatMap_nil, List.append_nil]
    rw [firstOffers_of_nodup _ he]
    have hany : ∀ y, (!(ulRun [] es).any (· == y)) = decide (y ∉ es.flatMap offered) := by
      intro y
      rw [Bool.eq_iff_iff]
      simp only [Bool.not_eq_true', ← Bool.not_eq_true, decide_eq_true_eq, ← hmem]
      simp [List.any_eq_true]
    cases e with
    | append y =>
      simp only [ULEvent.step, offered]
      have := hany y
      by_cases hy : y ∈ es.flatMap offered
      · simp only [hy, not_true_eq_false, decide_false, Bool.not_eq_false'] at this
        rw [if_pos this, List.filter_cons_of_neg (by simpa using hy)]; simp
      · simp only [hy, not_false_eq_true, decide_true, Bool.not_eq_true'] at this
        rw [if_neg (by simp [this]), List.filter_cons_of_pos (by simpa using hy)]; simp
    | extend it => simp only [ULEvent.step, offered, hany]
    | iadd it => simp only [ULEvent.step, offered, hany]

/-! ## C42: VettedDict -/

private theorem verify_true {κ α} (f : Filters κ α) (k : κ) (v : α) : f.verify k v = .ok true ↔ Vetted f k v := by
  unfold Filters.verify Vetted
  cases f.key k with
  | error e => simp
  | ok b =>
    cases b with
    | false => simp
    | true => cases f.value v <;> simp

private theorem verify_error {κ α} (f : Filters κ α) (k : κ) (v : α) :
    (∃ e, f.verify k v = .error e) ↔ ¬ Quiet f k v := by
  unfold Filters.verify Quiet
  cases f.key k with
  | error e => simp
  | ok b =>
    cases b with
    | false => simp
    | true => cases f.value v <;> simp

private theorem vdSet_get {κ α} [DecidableEq κ] (f : Filters κ α) (m : List (κ × α)) (k' k : κ) (v : α) :
    dictGet (vdSet f m k' v).2 k = register f k (dictGet m k) (.set k' v) := by
  simp only [vdSet, register]
  cases hv : f.verify k' v with
  | error e =>
    have : ¬ Vetted f k' v := by rw [← verify_true, hv]; simp
    rw [if_neg]
    rintro ⟨rfl, h⟩
    exact this h
  | ok b =>
    cases b with
    | false =>
      have : ¬ Vetted f k' v := by rw [← verify_true, hv]; simp
      rw [if_neg]
      rintro ⟨rfl, h⟩
      exact this h
    | true =>
      have : Vetted f k' v := by rw [← verify_true, hv]
      simp only [dictGet_set]
      by_cases hk : k = k'
      · subst hk; simp [this]
      · simp [hk, Ne.symm hk]

private theorem vdUpdate_get {κ α} [DecidableEq κ] (f : Filters κ α) (k : κ) (ps m : List (κ × α)) :
    dictGet (vdUpdate f m ps).2 k = register f k (dictGet m k) (.update ps) := by
  induction ps generalizing m with
  | nil => simp [vdUpdate, register]
  | cons p ps ih =>
    obtain ⟨k', v⟩ := p
    have hs := vdSet_get f m k' k v
    have hok : (∃ e, (vdSet f m k' v).1 = .error e ∧ (vdSet f m k' v).2 = m ∧ ¬ Quiet f k' v) ∨
        ((vdSet f m k' v).1 = .ok () ∧ Quiet f k' v) := by
      have hq := verify_error f k' v
      unfold vdSet
      cases hv : f.verify k' v with
      | error e => exact .inl ⟨e, rfl, rfl, hq.mp ⟨e, hv⟩⟩
      | ok b =>
        have : Quiet f k' v := Classical.byContradiction fun h => by
          obtain ⟨e, he⟩ := hq.mpr h; rw [hv] at he; cases he
        cases b <;> exact .inr ⟨rfl, this⟩
    rw [vdUpdate]
    rcases hok with ⟨e, h1, h2, h3⟩ | ⟨h1, h2⟩
    · generalize vdSet f m k' v = r at *
      obtain ⟨r1, r2⟩ := r
      simp only at h1 h2
      subst h1 h2
      simp [register, h3]
    · generalize vdSet f m k' v = r at *
      obtain ⟨r1, r2⟩ := r
      simp only at h1 hs
      subst h1
      simp only [ih, register, h2, decide_true, List.takeWhile_cons_of_pos, List.foldl_cons, hs]

/-- C42: a lookup in a VettedDict finds what the last effective call for that key left there. -/
theorem C42_lookup {κ α} [DecidableEq κ] (f : Filters κ α) (es : List (VDEvent κ α)) (k : κ) :
    dictGet (vdRun f [] es) k = es.foldl (register f k) none ∧
    vdItem (vdRun f [] es) k = (match es.foldl (register f k) none with
      | some v => .ok v
      | none => .error .keyError) := by
  have h : dictGet (vdRun f [] es) k = es.foldl (register f k) none := by
    induction es using List.reverseRec' with
    | h0 => rfl
    | h1 es e ih =>
      have hr : vdRun f [] (es ++ [e]) = (e.step f (vdRun f [] es)).2 := by simp [vdRun]
      rw [hr, List.foldl_append, ← ih]
      simp only [List.foldl_cons, List.foldl_nil]
      cases e with
      | set k' v => exact vdSet_get f _ k' k v
      | update ps => exact vdUpdate_get f k ps _
      | del k' =>
        simp only [VDEvent.step, register]
        cases hg : dictGet (vdRun f [] es) k' with
        | none => by_cases hk : k' = k <;> simp [hk]; subst hk; exact hg
        | some v => by_cases hk : k = k' <;> simp [dictGet_erase, hk, Ne.symm]
      | setdefault k' v =>
        simp only [VDEvent.step]
        cases hg : dictGet (vdRun f [] es) k' with
        | some v' =>
          simp only [register]
          by_cases hk : k' = k
          · subst hk; simp [hg]
          · simp [hk]
        | none =>
          rw [vdSet_get]
          simp only [register]
          by_cases hk : k' = k
          · subst hk
            by_cases hV : Vetted f k' v
            · rw [if_pos ⟨rfl, hV⟩, if_pos ⟨rfl, hg, hV⟩]
            · rw [if_neg (fun h => hV h.2), if_neg (fun h => hV h.2.2)]
          · simp [hk]
      | clear => rfl
  refine ⟨h, ?_⟩
  rw [vdItem, h]
  cases es.foldl (register f k) none <;> rfl

/-- C42: every pair in a VettedDict passed both filters. -/
theorem C42_vetted {κ α} [DecidableEq κ] (f : Filters κ α) (es : List (VDEvent κ α)) (k : κ) (v : α)
    (h : dictGet (vdRun f [] es) k = some v) : Vetted f k v := by
  rw [(C42_lookup f es k).1] at h
  have gen : ∀ (es : List (VDEvent κ α)) (cur : Option α), (∀ v, cur = some v → Vetted f k v) →
      ∀ v, es.foldl (register f k) cur = some v → Vetted f k v := by
    intro es
    induction es with
    | nil => intro cur hc v hv; exact hc v hv
    | cons e es ih =>
      intro cur hc v hv
      refine ih _ (fun v hv => ?_) v hv
      have hupd : ∀ (g : Option α → κ × α → Option α),
          (∀ cur p, g cur p = cur ∨ (g cur p = some p.2 ∧ Vetted f k p.2)) →
          ∀ (ps : List (κ × α)) (cur : Option α), (∀ v, cur = some v → Vetted f k v) →
          ∀ v, ps.foldl g cur = some v → Vetted f k v := by
        intro g hg ps
        induction ps with
        | nil => intro cur hc v hv; exact hc v hv
        | cons p ps ih =>
          intro cur hc v hv
          refine ih _ (fun v hv => ?_) v hv
          rcases hg cur p with h | ⟨h, hV⟩
          · rw [h] at hv; exact hc v hv
          · rw [h] at hv; cases hv; exact hV
      cases e with
      | set k' v' =>
        simp only [register] at hv
        split at hv
        · rename_i h; cases hv; exact h.2
        · exact hc v hv
      | del k' =>
        simp only [register] at hv
        split at hv
        · cases hv
        · exact hc v hv
      | update ps =>
        simp only [register] at hv
        refine hupd _ (fun cur p => ?_) _ cur hc v hv
        split
        · rename_i h; exact .inr ⟨rfl, h.2⟩
        · exact .inl rfl
      | setdefault k' v' =>
        simp only [register] at hv
        split at hv
        · rename_i h; cases hv; exact h.2.2
        · exact hc v hv
      | clear => simp [register] at hv
  exact gen es none (by simp) v h

/-- C42 does not hold for `get` with a default: a default is never returned for a missing key. -/
theorem C42_violated {κ α} [BEq κ] (m : List (κ × α)) (k : κ) (default : α) (h : dictGet m k = none) :
    vdGet m k [default] = none := by
  simp [vdGet, h]

/-- C42: without a default, `get` is the lookup. -/
theorem C42_get_partial {κ α} [BEq κ] (m : List (κ × α)) (k : κ) : vdGet m k [] = dictGet m k := by
  unfold vdGet
  cases dictGet m k <;> simp

/-! ## C43: RestrictedKeyNamesDict -/

/-- C43 does not hold: `setdefault` adds a new key. -/
theorem C43_violated : ∃ (init : List (String × Nat)) (e : RDEvent String Nat) (k : String),
    k ∉ init.map Prod.fst ∧ (e.step (init.map Prod.fst) init).1 = .ok () ∧
    dictGet (e.step (init.map Prod.fst) init).2 k = some 7 :=
  ⟨[("a", 1)], .setdefault "b" 7, "b", by simp, by simp [RDEvent.step, dictGet], by simp [RDEvent.step, dictGet, dictSet]⟩

/-- C43 does not hold: `update` with an unknown key raises TypeError, not KeyError. -/
theorem C43_update_error_violated {κ α} [DecidableEq κ] (names : List κ) (m ps : List (κ × α)) (p : κ × α)
    (hp : p ∈ ps) (hk : p.1 ∉ names) : RDEvent.step names m (.update ps) = (.error .typeError, m) := by
  have : (ps.all fun p => names.contains p.1) = false := by
    rw [List.all_eq_false]
    exact ⟨p, hp, by simpa using hk⟩
  simp only [RDEvent.step, this, Bool.false_eq_true, if_false]

/-- C43, partial: without `setdefault` the keys stay within those given at construction.
(Missing: see `C43_violated`.) -/
theorem C43_keys_partial {κ α} [DecidableEq κ] (init : List (κ × α)) (es : List (RDEvent κ α))
    (h : ∀ e ∈ es, ∀ k v, e ≠ .setdefault k v) (k : κ) (v : α) (hv : dictGet (rdRun init es) k = some v) :
    k ∈ init.map Prod.fst := by
  have mem_of_get : ∀ (m : List (κ × α)) k v, dictGet m k = some v → k ∈ m.map Prod.fst := by
    intro m k v hm
    induction m with
    | nil => simp [dictGet] at hm
    | cons p m ih =>
      rw [dictGet] at hm
      split at hm
      · rename_i hk; simp at hk; simp [hk]
      · exact List.mem_cons_of_mem _ (ih hm)
  induction es using List.reverseRec' generalizing k v with
  | h0 => exact mem_of_get _ k v hv
  | h1 es e ih =>
    have ih := fun k v => ih (fun e he => h e (List.mem_append_left _ he)) k v
    have he := h e (by simp)
    have hr : rdRun init (es ++ [e]) = (e.step (init.map Prod.fst) (rdRun init es)).2 := by simp [rdRun]
    rw [hr] at hv
    cases e with
    | set k' v' =>
      simp only [RDEvent.step] at hv
      split at hv
      · rename_i hc
        rw [dictGet_set] at hv
        split at hv
        · rename_i hk; subst hk; simpa using hc
        · exact ih k v hv
      · exact ih k v hv
    | update ps =>
      simp only [RDEvent.step] at hv
      split at hv
      · rename_i hc
        have hall := List.all_eq_true.mp hc
        clear hr
        have gen : ∀ (ps m : List (κ × α)), (∀ p ∈ ps, p.1 ∈ init.map Prod.fst) →
            (∀ k v, dictGet m k = some v → k ∈ init.map Prod.fst) →
            ∀ k v, dictGet (ps.foldl (fun m p => dictSet m p.1 p.2) m) k = some v → k ∈ init.map Prod.fst := by
          intro ps
          induction ps with
          | nil => intro m _ hm; exact hm
          | cons p ps ihp =>
            intro m hps hm
            refine ihp _ (fun p hp => hps p (List.mem_cons_of_mem _ hp)) fun k v hv => ?_
            rw [dictGet_set] at hv
            split at hv
            · rename_i hk; subst hk; exact hps p List.mem_cons_self
            · exact hm k v hv
        exact gen ps _ (fun p hp => by simpa using hall p hp) ih k v hv
      · exact ih k v hv
    | setdefault k' v' => exact (he k' v' rfl).elim
    | del k' =>
      simp only [RDEvent.step] at hv
      split at hv
      · rw [dictGet_erase] at hv
        split at hv
        · cases hv
        · exact ih k v hv
      · exact ih k v hv
    | clear => simp [RDEvent.step, dictGet] at hv

/-- C43: a call that raises changes nothing; assigning to an unknown key raises KeyError; assigning to
a known one stores the value and touches no other key. -/
theorem C43_set {κ α} [DecidableEq κ] (names : List κ) (m : List (κ × α)) :
    (∀ (e : RDEvent κ α) x, (e.step names m).1 = .error x → (e.step names m).2 = m) ∧
    (∀ k v, k ∉ names → RDEvent.step names m (.set k v) = (.error .keyError, m)) ∧
    (∀ k v, k ∈ names → (RDEvent.step names m (.set k v)).1 = .ok () ∧
      ∀ k', dictGet (RDEvent.step names m (.set k v)).2 k' = if k' = k then some v else dictGet m k') := by
  refine ⟨fun e x h => ?_, fun k v hk => by simp [RDEvent.step, hk], fun k v hk => ?_⟩
  · cases e <;> simp only [RDEvent.step] at h ⊢ <;>
      first | (cases h; done) | (split at h <;> first | (cases h; done) | (rename_i hc; simp only [hc]; rfl) | simp_all)
  · simp [RDEvent.step, hk, dictGet_set]

/-! ## C37: registry of attribute value classes -/

private theorem addClass_get (m : List (RegKey × RegValue)) (e : RegEvent) (i : String) :
    regLookup (addClass m e.identifier e.cls e.overwrite).2 i = regEffect i (regLookup m i) e := by
  obtain ⟨k, c, o⟩ := e
  simp only [regLookup, C42_get_partial]
  cases k with
  | other => cases c <;> simp [addClass, vdSet, Filters.verify, classFilters, regEffect]
  | str s =>
    cases c with
    | otherClass => simp [addClass, vdSet, Filters.verify, classFilters, regEffect]
    | notAClass => simp [addClass, vdSet, Filters.verify, classFilters, regEffect]
    | cls c =>
      cases o with
      | true =>
        simp only [addClass, vdSet, Filters.verify, classFilters, dictSet, if_true, vdUpdate, regEffect, dictGet_set]
        by_cases hs : i = s <;> simp [hs, eq_comm (a := s)]
      | false =>
        cases hg : dictGet m (RegKey.str s) with
        | some x =>
          simp only [addClass, vdSet, Filters.verify, classFilters, dictSet, List.filter, hg, Option.isNone_some,
            vdUpdate, regEffect, Bool.false_eq_true, if_false, false_or]
          by_cases hs : s = i
          · subst hs; simp [hg]
          · simp [hs]
        | none =>
          simp only [addClass, vdSet, Filters.verify, classFilters, dictSet, List.filter, hg, Option.isNone_none,
            vdUpdate, regEffect, Bool.false_eq_true, if_false, false_or, dictGet_set]
          by_cases hs : i = s
          · subst hs; simp [hg]
          · simp [hs, eq_comm (a := s)]

/-- C37: the class in force for an identifier after any history of registrations, given by a register
for that identifier alone: other identifiers, invalid registrations and repeated registrations without
`overwrite` do not touch it. -/
theorem C37_lookup (m : List (RegKey × RegValue)) (es : List RegEvent) (i : String) :
    regLookup (regRun m es) i = es.foldl (regEffect i) (regLookup m i) := by
  induction es using List.reverseRec' with
  | h0 => rfl
  | h1 es e ih =>
    have hr : regRun m (es ++ [e]) = (addClass (regRun m es) e.identifier e.cls e.overwrite).2 := by simp [regRun]
    rw [hr, addClass_get, ih, List.foldl_append]
    rfl

/-- C37: an identifier that is registered keeps its class as long as nobody registers it with
`overwrite`; in particular the 16 standard data types do. -/
theorem C37_conservative (m : List (RegKey × RegValue)) (es : List RegEvent) (i : String) (c : RegValue)
    (hc : regLookup m i = some c) (h : ∀ e ∈ es, e.identifier = .str i → e.overwrite = false) :
    regLookup (regRun m es) i = some c := by
  rw [C37_lookup]
  have gen : ∀ es : List RegEvent, (∀ e ∈ es, e.identifier = .str i → e.overwrite = false) →
      es.foldl (regEffect i) (some c) = some c := by
    intro es
    induction es with
    | nil => intro _; rfl
    | cons e es ih =>
      intro h
      have he : regEffect i (some c) e = some c := by
        have := h e List.mem_cons_self
        obtain ⟨k, v, o⟩ := e
        unfold regEffect
        split
        · rename_i heq
          injection heq with h1 h2 h3
          subst h1 h2 h3
          rw [if_neg]
          rintro ⟨rfl, ho | ho⟩
          · simp at this; simp [this] at ho
          · cases ho
        · rfl
      rw [List.foldl_cons, he]
      exact ih fun e he => h e (List.mem_cons_of_mem _ he)
  rw [hc]
  exact gen es h

/-- C37: an invalid class or identifier is rejected with TypeError and without effect; a valid
registration succeeds. -/
theorem C37_rejects (m : List (RegKey × RegValue)) (k : RegKey) (v : RegValue) (o : Bool) :
    ((k = .other ∨ v = .otherClass ∨ v = .notAClass) → addClass m k v o = (.error .typeError, m)) ∧
    (∀ s c, k = .str s → v = .cls c → (addClass m k v o).1 = .ok ()) := by
  constructor
  · rintro (rfl | rfl | rfl) <;> first | (cases k <;> rfl) | (cases v <;> rfl)
  · rintro s c rfl rfl
    cases o with
    | true => rfl
    | false =>
      simp only [addClass, vdSet, Filters.verify, classFilters, dictSet, Bool.false_eq_true, if_false]
      cases hg : dictGet m (RegKey.str s) <;> simp [List.filter, hg, vdUpdate, vdSet, Filters.verify]

/-! ## C38: the value of an attribute value -/

private theorem isInstance_iff (n : Native) (t : NativeType) : n.isInstance t = true ↔ HasType n t := by
  constructor
  · intro h
    cases n <;> cases t <;> first | (simp [Native.isInstance] at h; done) | constructor
  · intro h; cases h <;> rfl

/-- C38: after any history of assignments an attribute value created empty or with a value is unset or
holds the last assigned value of its native type; every other assignment fails. -/
theorem C38_native (v : AttrVal) (hv : ∀ n, v.value = some n → HasType n v.cls.native) (xs : List (Option Native)) :
    (v.setValues xs).cls = v.cls ∧ (v.setValues xs).dataType = v.dataType ∧
    (∀ n, (v.setValues xs).value = some n → HasType n v.cls.native) ∧
    ((v.setValues xs).value = v.value ∨ (v.setValues xs).value ∈ xs) := by
  induction xs using List.reverseRec' with
  | h0 => exact ⟨rfl, rfl, hv, .inl rfl⟩
  | h1 xs x ih =>
    obtain ⟨h1, h2, h3, h4⟩ := ih
    have hr : v.setValues (xs ++ [x]) = (match (v.setValues xs).setValue x with
      | .ok v' => v'
      | .error _ => v.setValues xs) := by
      simp only [AttrVal.setValues, List.foldl_append, List.foldl_cons, List.foldl_nil]
      split <;> rename_i h <;> simp only [h]
    rw [hr]
    have hkeep : (v.setValues xs).value = v.value ∨ (v.setValues xs).value ∈ xs ++ [x] :=
      h4.imp id (List.mem_append_left _)
    cases x with
    | none => exact ⟨h1, h2, h3, hkeep⟩
    | some n =>
      simp only [AttrVal.setValue]
      by_cases hn : n.isInstance (v.setValues xs).cls.native = true
      · simp only [hn, if_true]
        refine ⟨h1, h2, ?_, .inr (by simp)⟩
        rintro m hm
        cases hm
        rw [← h1, ← isInstance_iff]; exact hn
      · simp only [hn]
        exact ⟨h1, h2, h3, hkeep⟩

/-- C38: an assignment succeeds iff the object is of the native type, and then it is the value. -/
theorem C38_assign (v : AttrVal) (x : Option Native) :
    (∀ n, x = some n → HasType n v.cls.native → v.setValue x = .ok { v with value := some n }) ∧
    ((∀ n, x = some n → ¬ HasType n v.cls.native) → v.setValue x = .error .typeError) := by
  constructor
  · rintro n rfl h
    simp [AttrVal.setValue, (isInstance_iff _ _).mpr h]
  · intro h
    cases x with
    | none => rfl
    | some n =>
      have : ¬ n.isInstance v.cls.native = true := fun hn => h n rfl ((isInstance_iff _ _).mp hn)
      simp [AttrVal.setValue, this]

/-- An attribute value of the base64Binary type can never be given a value: the type has no native
type. -/
theorem C38_base64_unsettable (v : AttrVal) (hv : v.cls.native = .notImplemented) (x : Option Native) :
    v.setValue x = .error .typeError :=
  (C38_assign v x).2 fun n _ h => by rw [hv] at h; cases h

section NonVacuity
/-- A list of numbers below ten: two good calls, a refused one. -/
example : tlRun (· < 10) [] [.append 3, .extend ⟨false, [4, 5]⟩, .iadd ⟨false, [6, 12]⟩, .delItem 0] = [4, 5] := by
  decide
example : ∀ e ∈ [TLEvent.append 3, .extend ⟨false, [4, 5]⟩, .iadd ⟨false, [6, 12]⟩, .delItem 0], checkedCall e := by
  simp [checkedCall]
example : ulRun [] [ULEvent.append 1, .extend ⟨false, [2, 1, 3]⟩, .iadd ⟨true, [3, 4]⟩] = [1, 2, 3, 4] := by decide
example : ∀ e ∈ [ULEvent.append 1, .extend ⟨false, [2, 1, 3]⟩, .iadd ⟨true, [3, 4]⟩], (offered e).Nodup := by decide

/-- Filters: the key 0 is refused, the key 1 raises, values are even. -/
private def fl : Filters Nat Nat where
  key k := if k = 1 then .error .typeError else .ok (k != 0)
  value v := .ok (v % 2 == 0)
example : vdRun fl [] [.set 5 2, .set 0 2, .set 6 3, .update [(7, 4), (1, 4), (8, 4)], .setdefault 5 8, .set 9 2, .del 9]
    = [(5, 2), (7, 4)] := by decide
example : dictGet (vdRun fl [] [.set 5 2, .update [(5, 4), (1, 4), (5, 6)]]) 5 = some 4 := by decide

example : rdRun [(1, 10), (2, 20)] [.set 1 11, .set 3 30, .update [(2, 21), (4, 1)], .del 2, .update [(2, 22)]]
    = [(1, 11), (2, 22)] := by decide

example : regLookup stdRegistry (xsd "string") = some (.cls stringClass) := by
  simp [regLookup, vdGet, stdRegistry, stdClassMap, typeTable, dictGet, stringClass]

example : (Samples.str "a").setValues [some (.int 3), some (.str "b"), none] = Samples.str "b" := by
  simp [AttrVal.setValues, AttrVal.setValue, Samples.str, Native.isInstance, stringClass, stdClass]
end NonVacuity

end Xacml
