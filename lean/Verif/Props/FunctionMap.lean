import Verif.Lemmas.Dict
import Verif.Lemmas.FunctionTable
import Verif.Lemmas.List

/-!
# C34–C36: function lookup
-/
namespace Xacml
open Spec (Offers Registered)

/-- Outcome of a lookup on a new map. -/
def fresh (imp : Importer) (ns : String) : Except Exc FnEntry := (FunctionMap.new.get imp ns).1

/-- State invariant: entries other than custom ones are what a new map would give. -/
structure FmInv (imp : Importer) (m : FunctionMap) (c : String → Option FnEntry) : Prop where
  custom : ∀ ns e, c ns = some e → dictGet m.store ns = some e
  std : ∀ ns e, c ns = none → dictGet m.store ns = some e → fresh imp ns = .ok e
  fact : ∀ ns f, dictGet m.factories ns = some f → ∃ e, f ns.toList = .ok (.entry e) ∧ fresh imp ns = .ok e

private theorem fmInv_new (imp : Importer) : FmInv imp .new fun _ => none :=
  ⟨by simp, by simp [FunctionMap.new, dictGet], by simp [FunctionMap.new, dictGet]⟩

/-- Storing what a new map would give keeps the invariant. -/
private theorem fmInv_set {imp m c} (h : FmInv imp m c) {ns e} (hc : c ns = none) (he : fresh imp ns = .ok e) :
    FmInv imp { m with store := dictSet m.store ns e } c := by
  refine ⟨fun n e' hn => ?_, fun n e' hn => ?_, h.fact⟩
  · simp only [dictGet_set]
    split
    · subst n; rw [hc] at hn; cases hn
    · exact h.custom n e' hn
  · simp only [dictGet_set]
    split
    · subst n; intro he'; injection he' with he'; rw [← he', he]
    · exact h.std n e' hn

private theorem fmInv_load {imp m c} (h : FmInv imp m c) (ns : String) :
    FmInv imp (m.loadFunction imp ns).2 c ∧
    (dictGet m.store ns = none →
      ((m.loadFunction imp ns).1 = .ok () → ∃ e, fresh imp ns = .ok e ∧ dictGet (m.loadFunction imp ns).2.store ns = some e) ∧
      (∀ e, (m.loadFunction imp ns).1 = .error e → fresh imp ns = .error e)) := by
  unfold FunctionMap.loadFunction
  cases hs : dictGet m.store ns with
  | some e => exact ⟨h, by simp⟩
  | none =>
    have hc : c ns = none := by
      cases hc : c ns with
      | none => rfl
      | some e => rw [h.custom ns e hc] at hs; cases hs
    cases hf : dictGet m.factories ns with
    | some f =>
      obtain ⟨e, he, hfr⟩ := h.fact ns f hf
      simp only [he, FunctionMap.setItem]
      exact ⟨fmInv_set h hc hfr, fun _ => ⟨fun _ => ⟨e, hfr, by simp [dictGet_set]⟩, by simp⟩⟩
    | none =>
      have hfr : fresh imp ns = (FunctionMap.new.get imp ns).1 := rfl
      simp only [FunctionMap.get, FunctionMap.loadFunction, FunctionMap.new, dictGet] at hfr
      cases hp : functionClassPath ns.toList with
      | none =>
        simp only [hp] at hfr
        exact ⟨h, fun _ => ⟨by simp, fun e he => by simp only [Except.error.injEq] at he; rw [hfr, he]⟩⟩
      | some path =>
        simp only [hp] at hfr
        cases hi : imp path with
        | error e =>
          simp only [hi] at hfr ⊢
          by_cases he : e = .importError ∨ e = .attributeError
          · simp only [if_pos he, FunctionMap.setItem, dictSet, dictGet, beq_self_eq_true, if_true] at hfr
            simp only [if_pos he, FunctionMap.setItem]
            exact ⟨fmInv_set h hc hfr, fun _ => ⟨fun _ => ⟨_, hfr, by simp [dictGet_set]⟩, by simp⟩⟩
          · simp only [if_neg he] at hfr ⊢
            exact ⟨h, fun _ => ⟨by simp, fun e he => by simp only [Except.error.injEq] at he; rw [hfr, he]⟩⟩
        | ok f =>
          simp only [hi] at hfr ⊢
          cases hfn : f ns.toList with
          | error e =>
            simp only [hfn] at hfr ⊢
            exact ⟨h, fun _ => ⟨by simp, fun e he => by simp only [Except.error.injEq] at he; rw [hfr, he]⟩⟩
          | ok out =>
            cases out with
            | none =>
              simp only [hfn] at hfr ⊢
              exact ⟨h, fun _ => ⟨by simp, fun e he => by simp only [Except.error.injEq] at he; rw [hfr, he]⟩⟩
            | junk =>
              simp only [hfn, FunctionMap.setItem] at hfr ⊢
              exact ⟨h, fun _ => ⟨by simp, fun e he => by simp only [Except.error.injEq] at he; rw [hfr, he]⟩⟩
            | entry e =>
              simp only [hfn, FunctionMap.setItem, dictSet, dictGet, beq_self_eq_true, if_true] at hfr
              have h1 := fmInv_set h hc hfr
              simp only [hfn, FunctionMap.setItem]
              refine ⟨⟨h1.custom, h1.std, fun n g hg => ?_⟩, fun _ => ⟨fun _ => ⟨e, hfr, by simp [dictGet_set]⟩, by simp⟩⟩
              simp only [dictGet_set] at hg
              split at hg
              · subst n; injection hg with hg; subst hg; exact ⟨e, hfn, hfr⟩
              · exact h.fact n g hg

theorem fmInv_get {imp m c} (h : FmInv imp m c) (ns : String) :
    FmInv imp (m.get imp ns).2 c ∧
    (m.get imp ns).1 = (match c ns with | some e => .ok e | none => fresh imp ns) := by
  obtain ⟨h1, h2⟩ := fmInv_load h ns
  unfold FunctionMap.get
  cases hs : dictGet m.store ns with
  | some e =>
    refine ⟨h, ?_⟩
    cases hc : c ns with
    | some e' => have := h.custom ns e' hc; rw [hs] at this; injection this with this; simp [this]
    | none => exact (h.std ns e hc hs).symm
  | none =>
    have hc : c ns = none := by
      cases hc : c ns with
      | none => rfl
      | some e => rw [h.custom ns e hc] at hs; cases hs
    obtain ⟨h3, h4⟩ := h2 hs
    rcases hl : m.loadFunction imp ns with ⟨x, m'⟩
    rw [hl] at h1 h3 h4
    simp only at h1 h3 h4
    cases x with
    | error e => exact ⟨h1, by simp [hc, h4 e rfl]⟩
    | ok u =>
      cases u
      obtain ⟨e, he, hd⟩ := h3 rfl
      simp only [hd, hc]
      exact ⟨h1, he.symm⟩

private theorem fmInv_loadAll {imp} (l : List String) {m c} (h : FmInv imp m c) :
    FmInv imp (m.loadAll imp l).2 c := by
  induction l generalizing m with
  | nil => exact h
  | cons n l ih =>
    unfold FunctionMap.loadAll
    have h1 := (fmInv_load h n).1
    rcases hl : m.loadFunction imp n with ⟨x, m'⟩
    rw [hl] at h1
    cases x with
    | error e => exact h1
    | ok u => cases u; exact ih h1

/-- Storing a custom entry. -/
private theorem fmInv_custom {imp m c} (h : FmInv imp m c) (ns : String) (e : FnEntry) :
    FmInv imp { m with store := dictSet m.store ns e } (fun n => if n = ns then some e else c n) := by
  refine ⟨fun n e' hn => ?_, fun n e' hn => ?_, h.fact⟩
  · simp only [dictGet_set]
    by_cases hx : n = ns
    · simp only [hx, if_true] at hn ⊢; exact hn
    · simp only [hx, if_false] at hn ⊢; exact h.custom n e' hn
  · simp only [dictGet_set]
    by_cases hx : n = ns
    · simp [hx] at hn
    · simp only [hx, if_false] at hn ⊢; exact h.std n e' hn

private theorem fmInv_del {imp m c} (h : FmInv imp m c) (ns : String) :
    FmInv imp (m.delItem ns).2 (fun n => if n = ns then none else c n) := by
  unfold FunctionMap.delItem
  cases hs : dictGet m.store ns with
  | some e =>
    refine ⟨fun n e' hn => ?_, fun n e' hn => ?_, h.fact⟩
    · simp only [dictGet_erase]
      by_cases hx : n = ns
      · simp [hx] at hn
      · simp only [hx, if_false] at hn ⊢; exact h.custom n e' hn
    · simp only [dictGet_erase]
      by_cases hx : n = ns
      · simp [hx]
      · simp only [hx, if_false] at hn ⊢; exact h.std n e' hn
  | none =>
    refine ⟨fun n e' hn => ?_, fun n e' hn => ?_, h.fact⟩
    · by_cases hx : n = ns
      · simp [hx] at hn
      · simp only [hx, if_false] at hn; exact h.custom n e' hn
    · by_cases hx : n = ns
      · subst hx; simp [hs]
      · simp only [hx, if_false] at hn; exact h.std n e' hn

/-- A registration call stores what it offers or does nothing. -/
theorem loadCustom_cases (imp : Importer) (m : FunctionMap) (ns : String) (a : CustomArg) :
    (∃ e, Offers imp ns e a ∧ m.loadCustom imp ns a = (.ok (), { m with store := dictSet m.store ns e })) ∨
    ((∀ e, ¬ Offers imp ns e a) ∧ ∃ x, m.loadCustom imp ns a = (.error x, m)) := by
  unfold FunctionMap.loadCustom
  by_cases hstd : ns ∈ stdFunctionNames
  · refine .inr ⟨fun e ho => ?_, _, if_pos (by simpa using hstd)⟩
    cases ho with
    | factory h => exact h hstd
    | path h => exact h hstd
  · rw [if_neg (by simpa using hstd)]
    have key : ∀ f : Factory, (∃ e, f ns.toList = .ok (.entry e)) ∨ (∀ e, f ns.toList ≠ .ok (.entry e)) := by
      intro f
      by_cases h : ∃ e, f ns.toList = .ok (.entry e)
      · exact .inl h
      · exact .inr fun e he => h ⟨e, he⟩
    cases a with
    | factory f =>
      simp only
      rcases key f with ⟨e, he⟩ | he
      · exact .inl ⟨e, .factory hstd he, by simp [he, FunctionMap.setItem]⟩
      · refine .inr ⟨fun e ho => ?_, ?_⟩
        · cases ho with | factory _ h => exact he e h
        · cases hfn : f ns.toList with
          | error e => exact ⟨_, rfl⟩
          | ok out =>
            cases out with
            | none => exact ⟨_, rfl⟩
            | junk => exact ⟨_, rfl⟩
            | entry e => exact (he e hfn).elim
    | path p =>
      simp only
      cases hi : imp p.toList with
      | error e =>
        refine .inr ⟨fun e' ho => ?_, _, rfl⟩
        cases ho with | path _ h => rw [hi] at h; cases h
      | ok f =>
        simp only
        rcases key f with ⟨e, he⟩ | he
        · exact .inl ⟨e, .path hstd hi he, by simp [he, FunctionMap.setItem]⟩
        · refine .inr ⟨fun e ho => ?_, ?_⟩
          · cases ho with | path _ h h' => rw [hi] at h; injection h with h; subst h; exact he e h'
          · cases hfn : f ns.toList with
            | error e => exact ⟨_, rfl⟩
            | ok out =>
              cases out with
              | none => exact ⟨_, rfl⟩
              | junk => exact ⟨_, rfl⟩
              | entry e => exact (he e hfn).elim
    | notAString => exact .inr ⟨fun e ho => (nomatch ho), _, rfl⟩

private theorem offers_unique {imp ns e e' a} (h : Offers imp ns e a) (h' : Offers imp ns e' a) : e = e' := by
  cases h with
  | factory _ h1 => cases h' with | factory _ h2 => rw [h1] at h2; injection h2 with h2; injection h2
  | path _ hi h1 =>
    cases h' with
    | path _ hi' h2 =>
      rw [hi] at hi'; injection hi' with hi'; subst hi'
      rw [h1] at h2; injection h2 with h2; injection h2

private theorem fmRun_append (imp : Importer) (m : FunctionMap) (es : List FmEvent) (e : FmEvent) :
    fmRun imp m (es ++ [e]) = e.step imp (fmRun imp m es) := by
  simp [fmRun]

/-- For every history there are registered entries for which the invariant holds. -/
theorem fmInv_run (imp : Importer) (es : List FmEvent) :
    ∃ c, FmInv imp (fmRun imp .new es) c ∧ ∀ ns, Registered imp ns es (c ns) := by
  induction es using List.reverseRec' with
  | h0 => exact ⟨_, fmInv_new imp, fun _ => .start⟩
  | h1 es ev ih =>
    obtain ⟨c, h, hr⟩ := ih
    rw [fmRun_append]
    cases ev with
    | get n => exact ⟨c, (fmInv_get h n).1, fun ns => .lookup (hr ns)⟩
    | loadAllCore => exact ⟨c, fmInv_loadAll _ h, fun ns => .loadAll (hr ns)⟩
    | del n =>
      refine ⟨_, fmInv_del h n, fun ns => ?_⟩
      by_cases hx : ns = n
      · subst hx; simpa using .deleted (hr ns)
      · simpa [hx] using .otherDel (hr ns) (Ne.symm hx)
    | loadCustom n a =>
      rcases loadCustom_cases imp (fmRun imp .new es) n a with ⟨e, ho, heq⟩ | ⟨hno, x, heq⟩
      · refine ⟨_, by simpa only [FmEvent.step, heq] using fmInv_custom h n e, fun ns => ?_⟩
        by_cases hx : ns = n
        · subst hx; simpa using .registers (hr ns) ho
        · simpa [hx] using .otherCustom (hr ns) (Ne.symm hx)
      · refine ⟨c, by simpa only [FmEvent.step, heq] using h, fun ns => ?_⟩
        by_cases hx : ns = n
        · subst hx; exact .rejected (hr ns) hno
        · exact .otherCustom (hr ns) (Ne.symm hx)

private theorem append_singleton_inj {α} {l l' : List α} {a b : α} (h : l ++ [a] = l' ++ [b]) : l = l' ∧ a = b := by
  have := List.append_inj' h rfl
  simpa using this

/-- The registered entry is determined by the history. -/
private theorem registered_unique {imp ns es r r'} (h : Registered imp ns es r) (h' : Registered imp ns es r') :
    r = r' := by
  induction h generalizing r' with
  | start => generalize hes : ([] : List FmEvent) = es at h'; cases h' <;> simp_all
  | registers hr ho ih =>
    generalize hes : _ ++ [_] = es' at h'
    cases h' with
    | start => simp at hes
    | registers h2 ho2 => obtain ⟨rfl, h3⟩ := append_singleton_inj hes; cases h3; rw [offers_unique ho ho2]
    | rejected h2 hno => obtain ⟨rfl, h3⟩ := append_singleton_inj hes; cases h3; exact (hno _ ho).elim
    | otherCustom h2 hne => obtain ⟨rfl, h3⟩ := append_singleton_inj hes; cases h3; exact (hne rfl).elim
    | deleted | otherDel | lookup | loadAll => obtain ⟨_, h3⟩ := append_singleton_inj hes; cases h3
  | rejected hr hno ih =>
    generalize hes : _ ++ [_] = es' at h'
    cases h' with
    | start => simp at hes
    | registers h2 ho2 => obtain ⟨rfl, h3⟩ := append_singleton_inj hes; cases h3; exact (hno _ ho2).elim
    | rejected h2 _ => obtain ⟨rfl, h3⟩ := append_singleton_inj hes; cases h3; exact ih h2
    | otherCustom h2 hne => obtain ⟨rfl, h3⟩ := append_singleton_inj hes; cases h3; exact (hne rfl).elim
    | deleted | otherDel | lookup | loadAll => obtain ⟨_, h3⟩ := append_singleton_inj hes; cases h3
  | deleted hr ih =>
    generalize hes : _ ++ [_] = es' at h'
    cases h' with
    | start => simp at hes
    | deleted h2 => rfl
    | otherDel h2 hne => obtain ⟨rfl, h3⟩ := append_singleton_inj hes; cases h3; exact (hne rfl).elim
    | registers | rejected | otherCustom | lookup | loadAll => obtain ⟨_, h3⟩ := append_singleton_inj hes; cases h3
  | otherCustom hr hne ih =>
    generalize hes : _ ++ [_] = es' at h'
    cases h' with
    | start => simp at hes
    | registers h2 ho2 => obtain ⟨rfl, h3⟩ := append_singleton_inj hes; cases h3; exact (hne rfl).elim
    | rejected h2 _ => obtain ⟨rfl, h3⟩ := append_singleton_inj hes; cases h3; exact (hne rfl).elim
    | otherCustom h2 _ => obtain ⟨rfl, h3⟩ := append_singleton_inj hes; exact ih h2
    | deleted | otherDel | lookup | loadAll => obtain ⟨_, h3⟩ := append_singleton_inj hes; cases h3
  | otherDel hr hne ih =>
    generalize hes : _ ++ [_] = es' at h'
    cases h' with
    | start => simp at hes
    | deleted h2 => obtain ⟨rfl, h3⟩ := append_singleton_inj hes; cases h3; exact (hne rfl).elim
    | otherDel h2 _ => obtain ⟨rfl, h3⟩ := append_singleton_inj hes; exact ih h2
    | registers | rejected | otherCustom | lookup | loadAll => obtain ⟨_, h3⟩ := append_singleton_inj hes; cases h3
  | lookup hr ih =>
    generalize hes : _ ++ [_] = es' at h'
    cases h' with
    | start => simp at hes
    | lookup h2 => obtain ⟨rfl, h3⟩ := append_singleton_inj hes; exact ih h2
    | registers | rejected | otherCustom | deleted | otherDel | loadAll =>
      obtain ⟨_, h3⟩ := append_singleton_inj hes; cases h3
  | loadAll hr ih =>
    generalize hes : _ ++ [_] = es' at h'
    cases h' with
    | start => simp at hes
    | loadAll h2 => obtain ⟨rfl, h3⟩ := append_singleton_inj hes; exact ih h2
    | registers | rejected | otherCustom | deleted | otherDel | lookup =>
      obtain ⟨_, h3⟩ := append_singleton_inj hes; cases h3

/-! ## C34 -/

/-- C34: on any state, looking up other functions (or the same one) before does not change the outcome
of a lookup. -/
theorem C34_stable (imp : Importer) (m : FunctionMap) (before : List String) (ns : String) :
    ((fmRun imp m (before.map .get)).get imp ns).1 = (m.get imp ns).1 := by
  have load_other : ∀ (m : FunctionMap) (n : String), n ≠ ns →
      dictGet (m.loadFunction imp n).2.store ns = dictGet m.store ns ∧
      dictGet (m.loadFunction imp n).2.factories ns = dictGet m.factories ns := by
    intro m n hn
    have hset : ∀ (out : FactoryOut), dictGet (m.setItem n out).2.store ns = dictGet m.store ns ∧
        (m.setItem n out).2.factories = m.factories := by
      intro out
      cases out <;> simp [FunctionMap.setItem, dictGet_set, Ne.symm hn]
    unfold FunctionMap.loadFunction
    split
    · exact ⟨rfl, rfl⟩
    · split
      · split
        · exact ⟨rfl, rfl⟩
        · exact ⟨(hset _).1, by rw [(hset _).2]⟩
      · split
        · exact ⟨rfl, rfl⟩
        · split
          · split
            · exact ⟨(hset _).1, by rw [(hset _).2]⟩
            · exact ⟨rfl, rfl⟩
          · split
            · exact ⟨rfl, rfl⟩
            · exact ⟨rfl, rfl⟩
            · rename_i f out _ _
              have := hset out
              rcases hx : m.setItem n out with ⟨x, m'⟩
              rw [hx] at this
              cases x with
              | error e => exact ⟨this.1, by rw [this.2]⟩
              | ok u => cases u; simp only [dictGet_set, Ne.symm hn, if_false]; exact ⟨this.1, by rw [this.2]⟩
  have congr : ∀ (m m' : FunctionMap), dictGet m.store ns = dictGet m'.store ns →
      dictGet m.factories ns = dictGet m'.factories ns → (m.get imp ns).1 = (m'.get imp ns).1 := by
    intro m m' hs hf
    unfold FunctionMap.get
    rw [← hs]
    cases h : dictGet m.store ns with
    | some e => rfl
    | none =>
      have h' : dictGet m'.store ns = none := hs ▸ h
      unfold FunctionMap.loadFunction
      simp only [h, h', ← hf]
      cases dictGet m.factories ns with
      | some f =>
        simp only
        cases f ns.toList with
        | error e => rfl
        | ok out => cases out <;> simp [FunctionMap.setItem, dictGet_set]
      | none =>
        cases functionClassPath ns.toList with
        | none => rfl
        | some path =>
          simp only
          cases imp path with
          | error e =>
            simp only
            by_cases he : e = .importError ∨ e = .attributeError <;> simp [he, FunctionMap.setItem, dictGet_set]
          | ok f =>
            simp only
            cases f ns.toList with
            | error e => rfl
            | ok out => cases out <;> simp [FunctionMap.setItem, dictGet_set]
  have one : ∀ (m : FunctionMap) (n : String), ((m.get imp n).2.get imp ns).1 = (m.get imp ns).1 := by
    intro m n
    by_cases hn : n = ns
    · subst hn
      cases hs : dictGet m.store n with
      | some e => simp [FunctionMap.get, hs]
      | none =>
        rcases hl : m.loadFunction imp n with ⟨x, m'⟩
        cases x with
        | error e =>
          have hm : m' = m := by
            have := congrArg Prod.snd hl
            simp only at this
            rw [← this]
            revert hl
            unfold FunctionMap.loadFunction
            simp only [hs]
            cases dictGet m.factories n with
            | some f =>
              simp only
              cases f n.toList with
              | error e => intro _; rfl
              | ok out => cases out <;> simp [FunctionMap.setItem]
            | none =>
              cases functionClassPath n.toList with
              | none => intro _; rfl
              | some path =>
                simp only
                cases imp path with
                | error e =>
                  simp only
                  by_cases he : e = .importError ∨ e = .attributeError <;> simp [he, FunctionMap.setItem]
                | ok f =>
                  simp only
                  cases f n.toList with
                  | error e => intro _; rfl
                  | ok out => cases out <;> simp [FunctionMap.setItem]
          subst hm
          simp [FunctionMap.get, hs, hl]
        | ok u =>
          cases u
          cases hd : dictGet m'.store n with
          | some e => simp [FunctionMap.get, hs, hl, hd]
          | none =>
            exfalso
            revert hl
            unfold FunctionMap.loadFunction
            simp only [hs]
            cases dictGet m.factories n with
            | some f =>
              simp only
              cases f n.toList with
              | error e => simp
              | ok out =>
                cases out <;> simp only [FunctionMap.setItem, Prod.mk.injEq, reduceCtorEq, false_and, true_and] <;>
                  first | (intro h; subst h; simp [dictGet_set] at hd) | (intro h; exact h.elim)
            | none =>
              cases functionClassPath n.toList with
              | none => simp
              | some path =>
                simp only
                cases imp path with
                | error e =>
                  simp only
                  split <;> simp only [FunctionMap.setItem, Prod.mk.injEq, reduceCtorEq, false_and, true_and] <;>
                    first | (intro h; subst h; simp [dictGet_set] at hd) | (intro h; exact h.elim)
                | ok f =>
                  simp only
                  cases f n.toList with
                  | error e => simp
                  | ok out =>
                    cases out <;> simp only [FunctionMap.setItem, Prod.mk.injEq, reduceCtorEq, false_and, true_and] <;>
                      first | (intro h; subst h; simp [dictGet_set] at hd) | (intro h; exact h.elim)
    · refine congr _ _ ?_ ?_
      all_goals
        have := load_other m n hn
        unfold FunctionMap.get
        cases dictGet m.store n with
        | some e => rfl
        | none =>
          rcases hl : m.loadFunction imp n with ⟨x, m'⟩
          rw [hl] at this
          cases x with
          | error e => first | exact this.1 | exact this.2
          | ok u =>
            cases u
            simp only
            cases dictGet m'.store n <;> first | exact this.1 | exact this.2
  induction before generalizing m with
  | nil => rfl
  | cons n l ih =>
    have := ih (m.get imp n).2
    simp only [fmRun, List.map_cons, List.foldl_cons, FmEvent.step] at this ⊢
    rw [this, one]

/-! ## C35, C36 -/

/-- C36: after any history of lookups, registrations, deletions and bulk loads on a new map, a lookup
gives the function registered last and not deleted since; for a URN without one, what a new map gives. -/
theorem C36_lookup (imp : Importer) (es : List FmEvent) (ns : String) (r : Option FnEntry)
    (hr : Registered imp ns es r) :
    ((fmRun imp .new es).get imp ns).1 = r.elim (FunctionMap.new.get imp ns).1 .ok := by
  obtain ⟨c, h, hc⟩ := fmInv_run imp es
  rw [(fmInv_get h ns).2, registered_unique (hc ns) hr]
  cases r <;> rfl

/-- C36: there is always such an `r`, so the previous theorem covers every history. -/
theorem C36_registered_exists (imp : Importer) (es : List FmEvent) (ns : String) :
    ∃ r, Registered imp ns es r := by
  obtain ⟨c, _, hc⟩ := fmInv_run imp es
  exact ⟨_, hc ns⟩

/-- C36: a registration for a standard URN fails and changes nothing, in any state. -/
theorem C36_standard_protected (imp : Importer) (m : FunctionMap) (ns : String) (a : CustomArg)
    (h : ns ∈ stdFunctionNames) :
    m.loadCustom imp ns a = (.error .overwritingStdFunctionError, m) := by
  unfold FunctionMap.loadCustom
  rw [if_pos (by simpa using h)]

/-- C36: a failing registration changes nothing; a successful one installs what the factory returned. -/
theorem C36_atomic (imp : Importer) (m m' : FunctionMap) (ns : String) (a : CustomArg) (x : Except Exc Unit)
    (h : m.loadCustom imp ns a = (x, m')) :
    (∃ e, x = .error e ∧ m' = m) ∨ (∃ e, x = .ok () ∧ Offers imp ns e a ∧ (m'.get imp ns).1 = .ok e) := by
  rcases loadCustom_cases imp m ns a with ⟨e, ho, heq⟩ | ⟨hno, y, heq⟩
  · rw [heq] at h
    injection h with h1 h2
    subst h1 h2
    exact .inr ⟨e, rfl, ho, by simp [FunctionMap.get, dictGet_set]⟩
  · rw [heq] at h
    injection h with h1 h2
    exact .inl ⟨y, h1.symm, h2.symm⟩

private theorem registered_std {imp ns es r} (hstd : ns ∈ stdFunctionNames) (h : Registered imp ns es r) :
    r = none := by
  induction h with
  | start => rfl
  | registers hr ho ih => cases ho with | factory h => exact (h hstd).elim | path h => exact (h hstd).elim
  | rejected _ _ ih => exact ih
  | deleted => rfl
  | otherCustom _ _ ih => exact ih
  | otherDel _ _ ih => exact ih
  | lookup _ ih => exact ih
  | loadAll _ ih => exact ih

/-- C35: every standard URN resolves to its implementing class, or to the marker for unimplemented
functions, after any history of lookups, registrations, deletions and bulk loads. -/
theorem C35_standard (es : List FmEvent) (ns : String) (h : ns ∈ stdFunctionNames) :
    ((fmRun (stdImporter stdClassMap) .new es).get (stdImporter stdClassMap) ns).1
      = .ok (Spec.stdResolution ns) := by
  obtain ⟨r, hr⟩ := C36_registered_exists (stdImporter stdClassMap) es ns
  rw [C36_lookup _ es ns r hr, registered_std h hr]
  exact std_resolves ns h

/-- C35: the implemented functions are standard ones, and their objects are those of the function
library (C19–C23 describe what they compute). -/
theorem C35_implemented (customs : Nat → List PyVal → Except Exc PyVal) :
    ∀ row ∈ Spec.implemented, row.1 ∈ stdFunctionNames ∧
      (∃ f, (FnClass.std row.2.1 row.2.2).toFunc customs = some f) := by
  have h1 : ∀ row ∈ Spec.implemented, row.1 ∈ stdFunctionNames := by
    have : ∀ r ∈ implementedL, r.1 ∈ stdNamesL := by decide +kernel
    intro row hrow
    rw [implemented_eq] at hrow
    obtain ⟨r, hr, rfl⟩ := List.mem_map.mp hrow
    rw [stdNames_eq]
    exact List.mem_map.mpr ⟨_, this r hr, rfl⟩
  have h2 : ∀ row ∈ Spec.implemented,
      ((FnClass.std row.2.1 row.2.2).toFunc (fun _ _ => .error .typeError)).isSome = true := by decide +kernel
  intro row hrow
  refine ⟨h1 row hrow, ?_⟩
  have := h2 row hrow
  revert this
  rcases row with ⟨n, fam, t⟩
  cases fam <;> cases t <;> simp [FnClass.toFunc]

/-- C35: loading all standard functions at once succeeds, after any history. -/
theorem C35_loadAllCore (es : List FmEvent) :
    ((fmRun (stdImporter stdClassMap) .new es).loadAll (stdImporter stdClassMap) stdFunctionNames).1 = .ok () := by
  have gen : ∀ (l : List String) (m : FunctionMap) (c), FmInv (stdImporter stdClassMap) m c →
      (∀ n ∈ l, n ∈ stdFunctionNames) → (m.loadAll (stdImporter stdClassMap) l).1 = .ok () := by
    intro l
    induction l with
    | nil => intros; rfl
    | cons n l ih =>
      intro m c h hl
      unfold FunctionMap.loadAll
      have h1 := fmInv_load h n
      rcases hx : m.loadFunction (stdImporter stdClassMap) n with ⟨x, m'⟩
      rw [hx] at h1
      cases x with
      | ok u => cases u; exact ih m' c h1.1 fun k hk => hl k (by simp [hk])
      | error e =>
        exfalso
        cases hs : dictGet m.store n with
        | some e' => simp [FunctionMap.loadFunction, hs] at hx
        | none =>
          have := (h1.2 hs).2 e rfl
          have h3 := C35_standard [] n (hl n (by simp))
          simp only [fmRun, List.foldl_nil] at h3
          rw [fresh, h3] at this
          cases this
  obtain ⟨c, h, _⟩ := fmInv_run (stdImporter stdClassMap) es
  exact gen _ _ c h fun _ h => h

/-- The identifier for URI concatenation in the standard list is not implemented: the concatenation
module answers to `url-string-concatenate` instead. -/
theorem C35_uri_string_concatenate (es : List FmEvent) :
    ((fmRun (stdImporter stdClassMap) .new es).get (stdImporter stdClassMap)
        "urn:oasis:names:tc:xacml:2.0:function:uri-string-concatenate").1 = .ok .notImplemented ∧
    (FunctionMap.new.get (stdImporter stdClassMap)
        "urn:oasis:names:tc:xacml:2.0:function:url-string-concatenate").1
      = .ok (.cls (.std .concatenate (some anyURIClass))) := by
  have hm : (chars% "urn:oasis:names:tc:xacml:2.0:function:uri-string-concatenate") ∈ stdNamesL := by decide +kernel
  have h1 : implementedL.lookup (chars% "urn:oasis:names:tc:xacml:2.0:function:uri-string-concatenate") = none := by
    decide +kernel
  constructor
  · have := C35_standard es (String.ofList (chars% "urn:oasis:names:tc:xacml:2.0:function:uri-string-concatenate"))
      (by rw [stdNames_eq]; exact List.mem_map.mpr ⟨_, hm, rfl⟩)
    rw [Spec.stdResolution, implemented_eq, lookup_ofList, h1] at this
    exact this
  · have := get_new (stdImporter stdClassMap)
      (String.ofList (chars% "urn:oasis:names:tc:xacml:2.0:function:url-string-concatenate"))
    rw [String.toList_ofList] at this
    refine Eq.trans this ?_
    rfl

section NonVacuity
/-- A custom function registered twice, with lookups and a failing registration in between. -/
private def myFactory (n : Nat) : Factory := fun _ => .ok (.entry (.cls (.custom n)))
private def hist : List FmEvent :=
  [.get "urn:oasis:names:tc:xacml:1.0:function:string-equal", .loadCustom "urn:mine" (.factory (myFactory 1)),
   .loadCustom "urn:oasis:names:tc:xacml:1.0:function:string-equal" (.factory (myFactory 7)), .del "urn:other",
   .loadCustom "urn:mine" (.factory (myFactory 2)), .get "urn:mine"]
example : (match ((fmRun (stdImporter stdClassMap) .new hist).get (stdImporter stdClassMap) "urn:mine").1 with
    | .ok e => e == .cls (.custom 2)
    | .error _ => false) = true := by decide +kernel
example : Registered (stdImporter stdClassMap) "urn:mine" [.get "urn:mine", .loadCustom "urn:mine" (.factory (myFactory 1))]
    (some (.cls (.custom 1))) :=
  .registers (es := [.get "urn:mine"]) (.lookup (es := []) .start) (.factory (by decide +kernel) rfl)
example : "urn:oasis:names:tc:xacml:1.0:function:string-equal" ∈ stdFunctionNames := by decide +kernel
end NonVacuity

end Xacml
