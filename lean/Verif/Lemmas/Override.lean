import Verif.Lemmas.Extension

/-!
# Lemmas: replacing the class for a data type
-/
namespace Xacml
open Spec

/-- The same class of functions, for the classes of another class map. -/
def FnEntry.retype (cm : List (String × AVClass)) : FnEntry → FnEntry
  | .cls (.std fam (some t)) => .cls (.std fam (cm.lookup t.identifier))
  | e => e

theorem stdClassMap_ident : ∀ p ∈ stdClassMap, p.2.identifier = p.1 := by decide +kernel

theorem lookup_ident {i : String} {t : AVClass} (h : stdClassMap.lookup i = some t) : t.identifier = i :=
  stdClassMap_ident _ (mem_of_lookup h)

/-- All standard data types have classes. -/
def AllKnown (cm : List (String × AVClass)) : Prop := ∀ i, (stdClassMap.lookup i).isSome → (cm.lookup i).isSome

theorem stdImporter_retype {cm : List (String × AVClass)} (hk : AllKnown cm) (path : List Char) :
    (∃ x, stdImporter stdClassMap path = .error x ∧ stdImporter cm path = .error x) ∨
    (∃ f f', stdImporter stdClassMap path = .ok f ∧ stdImporter cm path = .ok f' ∧
      ∀ l e, f l = .ok (.entry e) → f' l = .ok (.entry (e.retype cm))) := by
  let R : Except Exc Factory → Except Exc Factory → Prop := fun a b =>
    ∃ f f', a = .ok f ∧ b = .ok f' ∧ ∀ l e, f l = .ok (.entry e) → f' l = .ok (.entry (e.retype cm))
  have b : ∀ fam sfx, R (.ok (baseFactory stdClassMap fam sfx)) (.ok (baseFactory cm fam sfx)) := by
    intro fam sfx
    refine ⟨_, _, rfl, rfl, fun l e hf => ?_⟩
    unfold baseFactory at hf ⊢
    cases hu : functionTypeURI sfx l with
    | error x => rw [hu] at hf; cases hf
    | ok u =>
      rw [hu] at hf
      simp only [classLookup] at hf ⊢
      cases ht : stdClassMap.lookup u with
      | none => rw [ht] at hf; cases hf
      | some t =>
        rw [ht] at hf
        obtain ⟨t', ht'⟩ := Option.isSome_iff_exists.mp (hk u (by rw [ht]; rfl))
        cases hf
        simp only [ht', FnEntry.retype, lookup_ident ht]
  have x : ∀ c ns, R (.ok (exactFactory (.std c none) ns)) (.ok (exactFactory (.std c none) ns)) := by
    intro c ns
    refine ⟨_, _, rfl, rfl, fun l e hf => ?_⟩
    unfold exactFactory at hf ⊢
    split at hf
    · rename_i h; rw [if_pos h]; cases hf; rfl
    · cases hf
  have y : ∀ c ns, R (.ok (exactFactory (.std c (stdClassMap.lookup (xsd "string"))) ns))
      (.ok (exactFactory (.std c (cm.lookup (xsd "string"))) ns)) := by
    intro c ns
    refine ⟨_, _, rfl, rfl, fun l e hf => ?_⟩
    unfold exactFactory at hf ⊢
    split at hf
    · rename_i h; rw [if_pos h]
      cases hf
      cases hs : stdClassMap.lookup (xsd "string") with
      | none => exact absurd hs (by decide +kernel)
      | some s => simp only [FnEntry.retype, lookup_ident hs]
    · cases hf
  unfold stdImporter
  simp only [classLookup]
  rcases SameKeys.lookup (R := R) (.cons (x _ _) (.cons (b _ _) (.cons (b _ _) (.cons (b _ _) (.cons (b _ _) (.cons (x _ _)
    (.cons (b _ _) (.cons (y _ _) (.cons (x _ _) (.cons (b _ _) (.cons (b _ _) .nil))))))))))) path with
    ⟨h1, h2⟩ | ⟨v, v', h1, h2, f, f', rfl, rfl, hf⟩
  · exact .inl ⟨.importError, by rw [h1], by rw [h2]⟩
  · exact .inr ⟨f, f', by rw [h1], by rw [h2], hf⟩

theorem classPath_below {l path : List Char} (h : functionClassPath l = some path) :
    (chars% "ndg.xacml.core.functions.") <+: path := by
  unfold functionClassPath at h
  split at h
  · cases h
  · rename_i pfx pkg hf
    have hp : (chars% "ndg.xacml.core.functions.") <+: pkg := by
      have := List.mem_of_find?_eq_some hf
      simp only [List.mem_cons, Prod.mk.injEq, List.not_mem_nil, or_false] at this
      rcases this with ⟨_, rfl⟩ | ⟨_, rfl⟩
      · exact ⟨['v', '1', '.'], rfl⟩
      · exact ⟨['v', '2', '.'], rfl⟩
    injection h with h
    rw [← h]
    obtain ⟨t, ht⟩ := hp
    exact ⟨t ++ functionModule ((strSplit pfx l).getLastD []) ++ chars% ".FunctionClassFactory", by
      rw [← ht]; simp only [List.append_assoc]⟩

/-- What a standard identifier resolves to under any class map in which all types are known. -/
theorem resolveL_retype {ext : Importer} (hx : NoOtherModules ext) (p : Package) (hk : AllKnown p.classMap)
    (ns : String) (h : ns ∈ stdFunctionNames) :
    resolveL (p.importer ext) ns.toList = .ok ((stdResolution ns).retype p.classMap) := by
  have hr := std_resolves ns h
  rw [get_new] at hr
  unfold resolveL at hr ⊢
  cases hp : functionClassPath ns.toList with
  | none => rw [hp] at hr; cases hr
  | some path =>
    rw [hp] at hr
    simp only [Package.importer] at hr ⊢
    rcases stdImporter_retype hk path with ⟨x, h1, h2⟩ | ⟨f, f', h1, h2, hf⟩
    · simp only [h1] at hr; simp only [h2]
      rw [hx path (classPath_below hp)]
      simp only [true_or, if_true]
      split at hr
      · injection hr with hr; rw [← hr]; rfl
      · cases hr
    · simp only [h1] at hr; simp only [h2]
      cases ho : f ns.toList with
      | error x => rw [ho] at hr; cases hr
      | ok out =>
        cases out with
        | none => rw [ho] at hr; cases hr
        | junk => rw [ho] at hr; cases hr
        | entry e =>
          rw [ho] at hr
          injection hr with hr
          subst hr
          rw [hf _ _ ho]

/-! ## The function map's entry for one identifier -/

/-- Nothing is stored for the identifier. -/
def FnUnused (m : FunctionMap) (ns : String) : Prop := dictGet m.store ns = none ∧ dictGet m.factories ns = none

/-- The identifier has been looked up, with the outcome `e`. -/
def FnBound (m : FunctionMap) (ns : String) (e : FnEntry) : Prop :=
  (dictGet m.store ns = none ∨ dictGet m.store ns = some e) ∧
    ∃ f, dictGet m.factories ns = some f ∧ f ns.toList = .ok (.entry e)

theorem fnBound_outcome {imp m ns e} (h : FnBound m ns e) : fmOutcome imp m ns = .ok e := by
  obtain ⟨h1 | h1, f, h2, h3⟩ := h
  · unfold fmOutcome; rw [h1]; simp only [h2, h3]; rfl
  · unfold fmOutcome; rw [h1]

/-- An entry that does not change. -/
def SameAt (m m' : FunctionMap) (ns : String) : Prop :=
  dictGet m'.store ns = dictGet m.store ns ∧ dictGet m'.factories ns = dictGet m.factories ns

theorem load_unused {imp m ns e} (hu : FnUnused m ns) (hr : resolveL imp ns.toList = .ok e) (hn : e ≠ .notImplemented) :
    FnBound (m.loadFunction imp ns).2 ns e := by
  have ho : fmOutcome imp m ns = .ok e := by unfold fmOutcome; rw [hu.1]; simp only [hu.2, hr]
  obtain ⟨_, h0, _, h⟩ := fmGet_spec imp m ns
  rw [h0] at h
  rcases h with ⟨x, hx, _⟩ | ⟨e', he', hs, hf⟩
  · rw [ho] at hx; cases hx
  · rw [ho] at he'
    injection he' with he'
    subst he'
    rcases hf with ⟨_, h | h | h⟩ | ⟨path, f, _, _, _, hfe, hff⟩
    · exact absurd hu.1 h
    · exact absurd hu.2 h
    · exact absurd h hn
    · exact ⟨.inr hs, f, hff, hfe⟩

theorem load_bound {imp m ns e} (hb : FnBound m ns e) : FnBound (m.loadFunction imp ns).2 ns e := by
  have ho := fnBound_outcome (imp := imp) hb
  obtain ⟨_, h0, _, h⟩ := fmGet_spec imp m ns
  rw [h0] at h
  rcases h with ⟨x, hx, _⟩ | ⟨e', he', hs, hf⟩
  · rw [ho] at hx; cases hx
  · rw [ho] at he'
    injection he' with he'
    subst he'
    rcases hf with ⟨h, _⟩ | ⟨path, f, _, _, _, hfe, hff⟩
    · obtain ⟨_, f, h2, h3⟩ := hb
      exact ⟨.inr hs, f, by rw [h, h2], h3⟩
    · exact ⟨.inr hs, f, hff, hfe⟩

theorem load_other {imp m ns n} (hn : ns ≠ n) : SameAt m (m.loadFunction imp n).2 ns := by
  obtain ⟨_, h0, h, _⟩ := fmGet_spec imp m n
  rw [← h0]
  exact h ns hn

theorem SameAt.unused {m m' ns} (h : SameAt m m' ns) (hu : FnUnused m ns) : FnUnused m' ns :=
  ⟨h.1.trans hu.1, h.2.trans hu.2⟩

theorem SameAt.bound {m m' ns e} (h : SameAt m m' ns) (hb : FnBound m ns e) : FnBound m' ns e := by
  obtain ⟨h1, f, h2, h3⟩ := hb
  exact ⟨by rw [h.1]; exact h1, f, by rw [h.2]; exact h2, h3⟩

theorem loadAll_bound {imp ns e} (l : List String) {m} (hb : FnBound m ns e) : FnBound (m.loadAll imp l).2 ns e := by
  induction l generalizing m with
  | nil => exact hb
  | cons a l ih =>
    have h : FnBound (m.loadFunction imp a).2 ns e := by
      by_cases ha : ns = a
      · subst ha; exact load_bound hb
      · exact (load_other ha).bound hb
    simp only [FunctionMap.loadAll]
    rcases hr : m.loadFunction imp a with ⟨r, m'⟩
    rw [hr] at h
    cases r with
    | error x => exact h
    | ok u => exact ih h

/-- What is stored under the standard identifiers, or under an identifier, is found. -/
theorem load_ok {imp m n e} (h : fmOutcome imp m n = .ok e) : (m.loadFunction imp n).1 = .ok () := by
  have hg := fmGet_eq imp m n
  rw [h] at hg
  unfold FunctionMap.get at hg
  cases hs : dictGet m.store n with
  | some e => unfold FunctionMap.loadFunction; rw [hs]
  | none =>
    rw [hs] at hg
    simp only at hg
    rcases hl : m.loadFunction imp n with ⟨r, m'⟩
    rw [hl] at hg
    cases r with
    | error x => cases hg
    | ok u => rfl

theorem loadAll_unused {imp ns e} (l : List String) {m} (hl : ∀ n ∈ l, ∃ e, fmOutcome imp m n = .ok e) (hm : ns ∈ l)
    (hu : FnUnused m ns) (hr : resolveL imp ns.toList = .ok e) (hn : e ≠ .notImplemented) :
    FnBound (m.loadAll imp l).2 ns e := by
  induction l generalizing m with
  | nil => cases hm
  | cons a l ih =>
    obtain ⟨e', he'⟩ := hl a (by simp)
    have hok := load_ok he'
    have hkeep := fun n => fmOutcome_load imp m a n
    simp only [FunctionMap.loadAll]
    by_cases ha : ns = a
    · subst ha
      have hb := load_unused (imp := imp) hu hr hn
      rcases hx : m.loadFunction imp ns with ⟨r, m'⟩
      rw [hx] at hok hb
      simp only at hok hb
      subst hok
      exact loadAll_bound l hb
    · have hu' : FnUnused (m.loadFunction imp a).2 ns := (load_other ha).unused hu
      rcases hx : m.loadFunction imp a with ⟨r, m'⟩
      rw [hx] at hok hu' hkeep
      simp only at hok hu' hkeep
      subst hok
      refine ih (fun n hn => ?_) ?_ hu'
      · rw [hkeep]; exact hl n (by simp [hn])
      · simpa [ha] using hm

/-! ## Histories -/

theorem allKnown_run (ext : Importer) (es : List ExtEvent) : AllKnown (Package.initial.run ext es).classMap :=
  fun i h => run_known ext es Package.initial i h

theorem package_run_append (ext : Importer) (p : Package) (es es' : List ExtEvent) :
    p.run ext (es ++ es') = (p.run ext es).run ext es' := by simp [Package.run]

theorem classMap_run (ext : Importer) (i : String) (es : List ExtEvent) (p : Package) :
    (p.run ext es).classMap.lookup i = classAfter i (p.classMap.lookup i) es := by
  induction es generalizing p with
  | nil => rfl
  | cons e es ih =>
    have : (p.run ext (e :: es)) = (e.step ext p).run ext es := rfl
    rw [this, ih]
    unfold classAfter
    rw [List.foldl_cons]
    congr 1
    cases e with
    | addClass j c o => exact registerClass_get _ _ _ _ _
    | addReader j r => rfl
    | function e => rfl

theorem loadCustom_std {imp m ns n a} (hs : ns ∈ stdFunctionNames) :
    SameAt m (FunctionMap.loadCustom imp m n a).2 ns := by
  by_cases hn : n = ns
  · subst hn; rw [C36_standard_protected imp m n a hs]; exact ⟨rfl, rfl⟩
  · rcases loadCustom_cases imp m n a with ⟨e, _, he⟩ | ⟨_, x, he⟩
    · rw [he]
      refine ⟨?_, rfl⟩
      simp only [dictGet_set, Ne.symm hn, if_false]
    · rw [he]; exact ⟨rfl, rfl⟩

/-- As long as the identifier is not looked up, nothing is stored for it. -/
theorem run_unused (ext : Importer) {ns : String} (hs : ns ∈ stdFunctionNames) (es : List ExtEvent)
    (hno : ∀ e ∈ es, ¬ LooksUp ns e) (p : Package) (hu : FnUnused p.functions ns) :
    FnUnused (p.run ext es).functions ns := by
  induction es generalizing p with
  | nil => exact hu
  | cons e es ih =>
    refine ih (fun e he => hno e (by simp [he])) _ ?_
    have h0 := hno e (by simp)
    cases e with
    | addClass i c o => exact hu
    | addReader i r => exact hu
    | function e =>
      cases e with
      | get n =>
        show FnUnused (p.functions.get (p.importer ext) n).2 ns
        rw [(fmGet_spec _ _ _).2.1]
        exact (load_other fun h => h0 h.symm).unused hu
      | loadCustom n a => exact (loadCustom_std hs).unused hu
      | del n =>
        show FnUnused (p.functions.delItem n).2 ns
        unfold FunctionMap.delItem
        split
        · refine ⟨?_, hu.2⟩
          simp only [dictGet_erase, hu.1, ite_self]
        · exact hu
      | loadAllCore => exact (h0 trivial).elim

/-- Once it has been looked up, its outcome stays. -/
theorem run_bound (ext : Importer) {ns : String} {e : FnEntry} (hs : ns ∈ stdFunctionNames) (es : List ExtEvent)
    (p : Package) (hb : FnBound p.functions ns e) : FnBound (p.run ext es).functions ns e := by
  induction es generalizing p with
  | nil => exact hb
  | cons ev es ih =>
    refine ih _ ?_
    cases ev with
    | addClass i c o => exact hb
    | addReader i r => exact hb
    | function ev =>
      cases ev with
      | get n =>
        show FnBound (p.functions.get (p.importer ext) n).2 ns e
        rw [(fmGet_spec _ _ _).2.1]
        by_cases hn : ns = n
        · subst hn; exact load_bound hb
        · exact (load_other hn).bound hb
      | loadCustom n a => exact (loadCustom_std hs).bound hb
      | del n =>
        show FnBound (p.functions.delItem n).2 ns e
        unfold FunctionMap.delItem
        split
        · obtain ⟨h1, f, h2, h3⟩ := hb
          refine ⟨?_, f, h2, h3⟩
          simp only [dictGet_erase]
          split
          · exact .inl rfl
          · exact h1
        · exact hb
      | loadAllCore => exact loadAll_bound _ hb

/-- The standard identifiers can be looked up after any history. -/
theorem run_std_ok {ext : Importer} (hx : NoOtherModules ext) (es : List ExtEvent) {n : String}
    (hs : n ∈ stdFunctionNames) :
    ∃ e, fmOutcome ((Package.initial.run ext es).importer ext) (Package.initial.run ext es).functions n = .ok e := by
  suffices h : (dictGet (Package.initial.run ext es).functions.store n).isSome ∨
      ∀ f, dictGet (Package.initial.run ext es).functions.factories n = some f → ∃ e, f n.toList = .ok (.entry e) by
    unfold fmOutcome
    cases hst : dictGet (Package.initial.run ext es).functions.store n with
    | some e => exact ⟨e, rfl⟩
    | none =>
      simp only
      rw [hst] at h
      cases hf : dictGet (Package.initial.run ext es).functions.factories n with
      | some f =>
        obtain ⟨e, he⟩ := (h.resolve_left (by simp)) f hf
        exact ⟨e, by simp only [he]; rfl⟩
      | none => exact ⟨_, resolveL_retype hx _ (allKnown_run ext es) n hs⟩
  right
  have gen : ∀ (es : List ExtEvent) (p : Package),
      (∀ f, dictGet p.functions.factories n = some f → ∃ e, f n.toList = .ok (.entry e)) →
      ∀ f, dictGet (p.run ext es).functions.factories n = some f → ∃ e, f n.toList = .ok (.entry e) := by
    have ld : ∀ imp (m : FunctionMap) a, (∀ f, dictGet m.factories n = some f → ∃ e, f n.toList = .ok (.entry e)) →
        ∀ f, dictGet (m.loadFunction imp a).2.factories n = some f → ∃ e, f n.toList = .ok (.entry e) := by
      intro imp m a h f hf
      by_cases ha : n = a
      · subst ha
        obtain ⟨_, h0, _, hx⟩ := fmGet_spec imp m n
        rw [h0] at hx
        rcases hx with ⟨_, _, hm⟩ | ⟨e, _, _, ⟨hsame, _⟩ | ⟨_, f', _, _, _, hfe, hff⟩⟩
        · rw [hm] at hf; exact h f hf
        · rw [hsame] at hf; exact h f hf
        · rw [hff] at hf; cases hf; exact ⟨e, hfe⟩
      · rw [(load_other ha).2] at hf; exact h f hf
    intro es
    induction es with
    | nil => intro p h; exact h
    | cons ev es ih =>
      intro p h
      refine ih _ ?_
      cases ev with
      | addClass i c o => exact h
      | addReader i r => exact h
      | function ev =>
        cases ev with
        | get a =>
          show ∀ f, dictGet (p.functions.get (p.importer ext) a).2.factories n = some f → _
          rw [(fmGet_spec _ _ _).2.1]
          exact ld _ _ _ h
        | loadCustom a b =>
          intro f hf
          rw [show (ExtEvent.step ext p (.function (.loadCustom a b))).functions =
            (p.functions.loadCustom (p.importer ext) a b).2 from rfl, (loadCustom_std hs).2] at hf
          exact h f hf
        | del a =>
          show ∀ f, dictGet (p.functions.delItem a).2.factories n = some f → _
          unfold FunctionMap.delItem
          split <;> exact h
        | loadAllCore =>
          show ∀ f, dictGet (p.functions.loadAll (p.importer ext) stdFunctionNames).2.factories n = some f → _
          have la : ∀ (l : List String) (m : FunctionMap),
              (∀ f, dictGet m.factories n = some f → ∃ e, f n.toList = .ok (.entry e)) →
              ∀ f, dictGet (m.loadAll (p.importer ext) l).2.factories n = some f → ∃ e, f n.toList = .ok (.entry e) := by
            intro l
            induction l with
            | nil => intro m h; exact h
            | cons a l ih =>
              intro m h
              have h' := ld (p.importer ext) m a h
              simp only [FunctionMap.loadAll]
              rcases hr : m.loadFunction (p.importer ext) a with ⟨r, m'⟩
              rw [hr] at h'
              cases r with
              | error x => exact h'
              | ok u => exact ih m' h'
          exact la _ _ h
  exact gen es Package.initial (by intro f hf; simp [Package.initial, FunctionMap.new, dictGet] at hf)

end Xacml
