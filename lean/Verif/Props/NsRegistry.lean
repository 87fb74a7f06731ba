import Verif.Lemmas.PrintAgree
import Verif.Props.PrettyPrint
import Verif.Spec.NsRegistry

/-!
# C77: reading policies and the registry of prefixes
-/
namespace Xacml
open Spec

theorem run_append (s : Registry) (h h' : List NsEvent) : runRegistry s (h ++ h') = runRegistry (runRegistry s h) h' :=
  List.foldl_append ..

theorem run_cons (s : Registry) (e : NsEvent) (h : List NsEvent) : runRegistry s (e :: h) = runRegistry (e.step s) h := rfl

private theorem get_set {α : Type} (m : List (Nat × α)) (r : Nat) (v : α) : dictGet (dictSet m r v) r = some v := by
  induction m with
  | nil => simp [dictSet, dictGet]
  | cons x m ih =>
    rcases x with ⟨k, w⟩
    rw [dictSet]
    by_cases h : k = r
    · simp [h, dictGet]
    · have : (k == r) = false := by simpa using h
      simp [this, dictGet, ih]

private theorem get_set_ne {α : Type} (m : List (Nat × α)) {r r' : Nat} (hr : r ≠ r') (v : α) :
    dictGet (dictSet m r' v) r = dictGet m r := by
  induction m with
  | nil =>
    have : (r' == r) = false := by simpa using Ne.symm hr
    simp [dictSet, dictGet, this]
  | cons x m ih =>
    rcases x with ⟨k, w⟩
    rw [dictSet]
    by_cases h : k = r'
    · subst h
      have : (k == r) = false := by simpa using Ne.symm hr
      simp [dictGet, this]
    · have : (k == r') = false := by simpa using h
      simp [this, dictGet, ih]

private theorem get_erase_ne {α : Type} (m : List (Nat × α)) {r r' : Nat} (hr : r ≠ r') :
    dictGet (dictErase m r') r = dictGet m r := by
  induction m with
  | nil => rfl
  | cons x m ih =>
    rcases x with ⟨k, w⟩
    rw [dictErase]
    by_cases h : k = r'
    · subst h
      have : (k == r) = false := by simpa using Ne.symm hr
      simp [dictGet, this, ih]
    · have : (k == r') = false := by simpa using h
      simp [this, dictGet, ih]

private theorem keeps {r : Nat} {h : List NsEvent} : ∀ {s : Registry}, (∀ e ∈ h, concerns r e = false) →
    dictGet (runRegistry s h).backups r = dictGet s.backups r := by
  induction h with
  | nil => intro s _; rfl
  | cons e h ih =>
    intro s hc
    rw [run_cons, ih fun e' he' => hc e' (List.mem_cons_of_mem _ he')]
    have he := hc e (List.mem_cons_self ..)
    cases e with
    | newReader r' =>
      have : r ≠ r' := by simpa [concerns] using he
      exact get_set_ne _ this _
    | delReader r' =>
      have hne : r ≠ r' := by simpa [concerns] using he
      rw [NsEvent.step]
      cases dictGet s.backups r' with
      | none => rfl
      | some m => exact get_erase_ne _ hne
    | register uri pfx => rfl
    | makeElement uri pfx => rfl

/-- C77: when a reader is deleted, the registry becomes what it was when the reader was created,
whatever has happened in between. -/
theorem C77_rewind (s : Registry) (before between : List NsEvent) (r : Nat) (h : ∀ e ∈ between, concerns r e = false) :
    (runRegistry s (before ++ .newReader r :: between ++ [.delReader r])).current = (runRegistry s before).current := by
  simp only [run_append, run_cons]
  generalize runRegistry s before = t
  have hk := keeps (s := (NsEvent.newReader r).step t) h
  rw [show dictGet ((NsEvent.newReader r).step t).backups r = some t.current from get_set _ _ _] at hk
  generalize runRegistry ((NsEvent.newReader r).step t) between = u at hk ⊢
  simp only [NsEvent.step, hk]
  rfl

private theorem quiet_current {h : List NsEvent} (hq : QuietReaders h) : ∀ s, (runRegistry s h).current = s.current := by
  induction hq with
  | nil => intro s; rfl
  | @reader r body rest _ hb _ _ ih2 =>
    intro s
    rw [show NsEvent.newReader r :: body ++ NsEvent.delReader r :: rest =
      (([] : List NsEvent) ++ NsEvent.newReader r :: body ++ [.delReader r]) ++ rest by simp, run_append, ih2,
      C77_rewind s [] body r hb]
    rfl

private theorem quiet_filter {h : List NsEvent} (hq : QuietReaders h) : h.filter byProgram = [] := by
  induction hq with
  | nil => rfl
  | reader _ _ _ ih1 ih2 => simp [List.filter_append, ih1, ih2, byProgram]

private theorem program_current {e : NsEvent} (he : byProgram e = true) {s t : Registry} (h : s.current = t.current) :
    (e.step s).current = (e.step t).current := by
  cases e with
  | newReader r => cases he
  | delReader r => cases he
  | register uri pfx => simp [NsEvent.step, h]
  | makeElement uri pfx => simp [NsEvent.step, h]

private theorem program_run {h : List NsEvent} : ∀ {s t : Registry}, (∀ e ∈ h, byProgram e = true) → s.current = t.current →
    (runRegistry s h).current = (runRegistry t h).current := by
  induction h with
  | nil => intro s t _ h; exact h
  | cons e h ih =>
    intro s t he hst
    exact ih (fun e' he' => he e' (List.mem_cons_of_mem _ he')) (program_current (he e (List.mem_cons_self ..)) hst)

/-- C77: if readers are deleted in the reverse order of their creation and nothing is registered while
one exists, the registry is in the end what it would be had no policy been read. -/
theorem C77_nested_partial (h : List NsEvent) (hn : NestedReaders h) (s : Registry) :
    (runRegistry s h).current = withoutReaders s.current h := by
  rw [withoutReaders]
  have hf : ∀ l : List NsEvent, ∀ e ∈ l.filter byProgram, byProgram e = true := fun l e he => (List.mem_filter.1 he).2
  induction hn generalizing s with
  | nil => rfl
  | @program e rest he _ ih =>
    rw [run_cons, ih, List.filter_cons_of_pos he, run_cons]
    exact program_run (hf _) (program_current he rfl)
  | @reader r body rest hq hb _ ih =>
    have h1 : (NsEvent.newReader r :: body ++ NsEvent.delReader r :: rest).filter byProgram = rest.filter byProgram := by
      simp [List.filter_append, quiet_filter hq, byProgram]
    rw [h1, show NsEvent.newReader r :: body ++ NsEvent.delReader r :: rest =
      (([] : List NsEvent) ++ NsEvent.newReader r :: body ++ [.delReader r]) ++ rest by simp, run_append, ih]
    exact program_run (hf _) (C77_rewind s [] body r hb)

/-! ## What is printed while readers exist -/

private theorem set_lookup (m : List (Chars × Chars)) (k v u : Chars) (h : u ≠ k) : (dictSet m k v).lookup u = m.lookup u := by
  induction m with
  | nil =>
    have : (u == k) = false := by simpa using h
    simp [dictSet, List.lookup_cons, this]
  | cons x m ih =>
    rcases x with ⟨k', w⟩
    rw [dictSet]
    by_cases hk : k' = k
    · subst hk
      have : (u == k') = false := by simpa using h
      simp [List.lookup_cons, this]
    · have : (k' == k) = false := by simpa using hk
      simp [this, List.lookup_cons, ih]

private theorem set_values {m : List (Chars × Chars)} {k v p : Chars} (hv : p ≠ v) (hm : ∀ w, (k, w) ∈ m → w = v) :
    p ∈ (dictSet m k v).map Prod.snd ↔ p ∈ m.map Prod.snd := by
  induction m with
  | nil => simpa [dictSet] using hv
  | cons x m ih =>
    rcases x with ⟨k', w⟩
    rw [dictSet]
    by_cases hk : k' = k
    · subst hk
      have := hm w (List.mem_cons_self ..)
      simp [this]
    · have : (k' == k) = false := by simpa using hk
      simp only [this, if_false, List.map_cons, List.mem_cons, ih fun w hw => hm w (List.mem_cons_of_mem _ hw), Bool.false_eq_true]

private theorem set_set (m : List (Chars × Chars)) (k v : Chars) : dictSet (dictSet m k v) k v = dictSet m k v := by
  induction m with
  | nil => simp [dictSet]
  | cons x m ih =>
    rcases x with ⟨k', w⟩
    rw [dictSet]
    by_cases hk : k' = k
    · simp [hk, dictSet]
    · have : (k' == k) = false := by simpa using hk
      simp [this, dictSet, ih]

/-- Without registrations there are only two registries. -/
private theorem two_states {m : List (Chars × Chars)} {h : List NsEvent} : ∀ {s : Registry}, (∀ e ∈ h, byProgram e = false) →
    (s.current = m ∨ s.current = dictSet m [] policyNsChars) →
    (∀ r b, dictGet s.backups r = some b → b = m ∨ b = dictSet m [] policyNsChars) →
    (runRegistry s h).current = m ∨ (runRegistry s h).current = dictSet m [] policyNsChars := by
  induction h with
  | nil => intro s _ h1 _; exact h1
  | cons e h ih =>
    intro s he h1 h2
    rw [run_cons]
    have he' := he e (List.mem_cons_self ..)
    refine ih (fun e' he' => he e' (List.mem_cons_of_mem _ he')) ?_ ?_
    · cases e with
      | newReader r =>
        refine .inr ?_
        rcases h1 with h1 | h1
        · simp [NsEvent.step, h1]
        · simp [NsEvent.step, h1, set_set]
      | delReader r =>
        rw [NsEvent.step]
        cases hb : dictGet s.backups r with
        | none => exact h1
        | some b => exact h2 r b hb
      | register uri pfx => cases he'
      | makeElement uri pfx => cases he'
    · intro r b hb
      cases e with
      | newReader r' =>
        by_cases hr : r = r'
        · subst hr
          rw [show dictGet ((NsEvent.newReader r).step s).backups r = some s.current from get_set _ _ _] at hb
          cases hb; exact h1
        · rw [show dictGet ((NsEvent.newReader r').step s).backups r = dictGet s.backups r from get_set_ne _ hr _] at hb
          exact h2 r b hb
      | delReader r' =>
        rw [NsEvent.step] at hb
        cases hb' : dictGet s.backups r' with
        | none => rw [hb'] at hb; exact h2 r b hb
        | some b' =>
          rw [hb'] at hb
          by_cases hr : r = r'
          · subst hr
            have : ∀ l : List (Nat × List (Chars × Chars)), dictGet (dictErase l r) r = none := by
              intro l
              induction l with
              | nil => rfl
              | cons x l ih =>
                rcases x with ⟨k, w⟩
                rw [dictErase]
                by_cases hk : k = r
                · simp [hk, ih]
                · have : (k == r) = false := by simpa using hk
                  simp [this, dictGet, ih]
            simp only [this] at hb; cases hb
          · simp only [get_erase_ne _ hr] at hb; exact h2 r b hb
      | register uri pfx => cases he'
      | makeElement uri pfx => cases he'

/-- C76: what is printed, or that it fails, depends only on the prefixes for the namespaces of the tree
and on which of the generated prefixes are free. -/
theorem C76_depends (m m' : List (Chars × Chars)) (e : PElem) (indent space : Chars)
    (h : ∀ u ∈ namespaces e, m.lookup u = m'.lookup u) (hf : freePrefixes m = freePrefixes m') :
    (prettyPrint m e indent space).1 = (prettyPrint m' e indent space).1 := by
  have ha : Agree (namespaces e) { nsMap := m, mapped := m.map Prod.snd } { nsMap := m', mapped := m'.map Prod.snd } := by
    refine ⟨h, fun i hi => ?_⟩
    have hmem : ∀ m : List (Chars × Chars), nsName i ∈ freePrefixes m ↔ nsName i ∉ m.map Prod.snd := by
      intro m
      rw [freePrefixes, List.mem_filter]
      constructor
      · intro h; simpa using h.2
      · intro h; exact ⟨List.mem_map.2 ⟨i, List.mem_range.2 hi, rfl⟩, by simpa using h⟩
    have := (hmem m).symm.trans (hf ▸ hmem m')
    exact Decidable.not_iff_not.1 this
  have hr := respects_elem e (fun _ h => h) indent space [] _ _ ha
  rw [prettyPrint, prettyPrint]
  simp only [EStateM.run]
  cases h1 : printElem indent space [] e { nsMap := m, mapped := m.map Prod.snd } with
  | ok a s =>
    cases h2 : printElem indent space [] e { nsMap := m', mapped := m'.map Prod.snd } with
    | ok b t => rw [h1, h2] at hr; simp only [hr.1]
    | error y t => rw [h1, h2] at hr; cases hr
  | error x s =>
    cases h2 : printElem indent space [] e { nsMap := m', mapped := m'.map Prod.snd } with
    | ok b t => rw [h1, h2] at hr; cases hr
    | error y t => rw [h1, h2] at hr

/-- C77: as long as nothing is registered, readers may come and go in any order: what is printed for a
tree all of whose elements have namespaces is the same. -/
theorem C77_print (m : List (Chars × Chars)) (hm : [] ∉ m.map Prod.fst) (h : List NsEvent) (hh : ∀ e ∈ h, byProgram e = false)
    (e : PElem) (he : [] ∉ namespaces e) (indent space : Chars) :
    (prettyPrint (runRegistry ⟨m, []⟩ h).current e indent space).1 = (prettyPrint m e indent space).1 := by
  rcases two_states (m := m) (s := ⟨m, []⟩) hh (.inl rfl) (fun r b hb => nomatch hb) with h1 | h1
  · rw [h1]
  · rw [h1]
    refine C76_depends _ _ _ _ _ (fun u hu => set_lookup _ _ _ _ fun h0 => he (h0 ▸ hu)) ?_
    rw [freePrefixes, freePrefixes]
    refine List.filter_congr fun p hp => ?_
    obtain ⟨i, hi, rfl⟩ := List.mem_map.1 hp
    have hne : ('n' :: 's' :: (toString i).toList : Chars) ≠ policyNsChars := by
      intro h; cases h
    have := set_values (m := m) (k := []) hne fun w hw => absurd (List.mem_map.2 ⟨_, hw, rfl⟩) hm
    rw [Bool.eq_iff_iff]
    simp only [Bool.not_eq_true', List.contains_eq_mem, decide_eq_false_iff_not, this]

/-- C77, violated: what is registered while a reader exists is lost. -/
theorem C77_violated_lost (m : List (Chars × Chars)) (r : Nat) (uri pfx : Chars) (h : (uri, pfx) ∉ m) :
    let h := [NsEvent.newReader r, .register uri pfx, .delReader r]
    (uri, pfx) ∉ (runRegistry ⟨m, []⟩ h).current ∧ (uri, pfx) ∈ withoutReaders m h := by
  refine ⟨?_, ?_⟩
  · rw [show [NsEvent.newReader r, .register uri pfx, .delReader r] =
      ([] : List NsEvent) ++ .newReader r :: [.register uri pfx] ++ [.delReader r] from rfl,
      C77_rewind _ [] [.register uri pfx] r (by simp [concerns])]
    exact h
  · rw [withoutReaders, show [NsEvent.newReader r, .register uri pfx, .delReader r].filter byProgram = [.register uri pfx] from rfl]
    simp [runRegistry, NsEvent.step, registerNamespace]

/-- C77, violated: if the reader that was created first is deleted first, the entry the readers make
stays when both are gone. -/
theorem C77_violated_overlap (m : List (Chars × Chars)) (r r' : Nat) (hr : r ≠ r') :
    let s := runRegistry ⟨m, []⟩ [.newReader r, .newReader r', .delReader r, .delReader r']
    s.current = dictSet m [] policyNsChars ∧ s.backups = [] := by
  have h1 : (r == r') = false := by simpa using hr
  have h2 : (r' == r) = false := by simpa using Ne.symm hr
  simp [runRegistry, NsEvent.step, dictSet, dictGet, dictErase, h1, Ne.symm hr]

/-- Non-vacuity of `C77_nested_partial`, `C77_rewind` and `C77_print`: a policy with one nested reader,
then a registration. -/
example :
    let h := [NsEvent.newReader 0, .newReader 1, .delReader 1, .delReader 0, .register "u".toList "a".toList]
    NestedReaders h ∧ runRegistry ⟨[(xmlUri, xmlName)], []⟩ h = ⟨[(xmlUri, xmlName), ("u".toList, "a".toList)], []⟩ := by
  refine ⟨?_, by decide⟩
  have hq : QuietReaders [NsEvent.newReader 1, .delReader 1] := QuietReaders.reader (r := 1) (body := []) .nil (by simp) .nil
  exact NestedReaders.reader (r := 0) (body := [NsEvent.newReader 1, .delReader 1]) hq (by decide)
    (NestedReaders.program rfl .nil)

/-- Non-vacuity of `C77_print` and `C76_depends`: with overlapping readers. -/
example : [] ∉ Samples.registry.map Prod.fst ∧ [] ∉ namespaces Samples.printed ∧
    (∀ e ∈ [NsEvent.newReader 0, .newReader 1, .delReader 0], byProgram e = false) ∧
    (runRegistry ⟨Samples.registry, []⟩ [.newReader 0, .newReader 1]).current ≠ Samples.registry := by decide

/-- While a reader exists, the registry does differ. -/
example : runRegistry ⟨[(xmlUri, xmlName)], []⟩ [.newReader 0] ≠ ⟨[(xmlUri, xmlName)], []⟩ := by decide

end Xacml
