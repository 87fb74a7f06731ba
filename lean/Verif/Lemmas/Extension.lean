import Verif.Spec.Extension
import Verif.Props.FunctionMap
import Verif.Lemmas.List

/-!
# Lemmas on the registries
-/
namespace Xacml
open Spec

theorem lookup_eq_dictGet {α} (m : List (String × α)) (k : String) : m.lookup k = dictGet m k := by
  induction m with
  | nil => rfl
  | cons p m ih =>
    obtain ⟨a, b⟩ := p
    simp only [List.lookup, dictGet, ih]
    by_cases h : a = k
    · subst h; simp
    · have h1 : (k == a) = false := by simpa using Ne.symm h
      have h2 : (a == k) = false := by simpa using h
      simp [h1, h2]

/-- What a factory's answer means for a lookup. -/
def FactoryOut.toEntry : Except Exc FactoryOut → Except Exc FnEntry
  | .error e => .error e
  | .ok (.entry e) => .ok e
  | .ok .none | .ok .junk => .error .typeError

/-- The outcome of a lookup, computed from the two dicts. -/
def fmOutcome (imp : Importer) (m : FunctionMap) (ns : String) : Except Exc FnEntry :=
  match dictGet m.store ns with
  | some e => .ok e
  | none =>
    match dictGet m.factories ns with
    | some f => FactoryOut.toEntry (f ns.toList)
    | none => resolveL imp ns.toList

/-- What a lookup gives, and what it leaves in the two dicts for the identifier: nothing new, or the outcome and
perhaps a factory for it. -/
theorem fmGet_spec (imp : Importer) (m : FunctionMap) (ns : String) :
    (m.get imp ns).1 = fmOutcome imp m ns ∧
    (m.get imp ns).2 = (m.loadFunction imp ns).2 ∧
    (∀ n, n ≠ ns → dictGet (m.get imp ns).2.store n = dictGet m.store n ∧
      dictGet (m.get imp ns).2.factories n = dictGet m.factories n) ∧
    ((∃ x, fmOutcome imp m ns = .error x ∧ (m.get imp ns).2 = m) ∨
     ∃ e, fmOutcome imp m ns = .ok e ∧ dictGet (m.get imp ns).2.store ns = some e ∧
      (dictGet (m.get imp ns).2.factories ns = dictGet m.factories ns ∧
          (dictGet m.store ns ≠ none ∨ dictGet m.factories ns ≠ none ∨ e = .notImplemented) ∨
        ∃ path f, dictGet m.store ns = none ∧ functionClassPath ns.toList = some path ∧ imp path = .ok f ∧
          f ns.toList = .ok (.entry e) ∧ dictGet (m.get imp ns).2.factories ns = some f)) := by
  unfold FunctionMap.get FunctionMap.loadFunction fmOutcome
  cases hs : dictGet m.store ns with
  | some e => simp [hs]
  | none =>
    simp only [hs]
    cases hf : dictGet m.factories ns with
    | some f =>
      simp only []
      cases ho : f ns.toList with
      | error e => simp [FactoryOut.toEntry, hs]
      | ok out =>
        cases out with
        | none => simp [FactoryOut.toEntry, FunctionMap.setItem]
        | junk => simp [FactoryOut.toEntry, FunctionMap.setItem]
        | entry e =>
          simp only [FunctionMap.setItem, FactoryOut.toEntry, dictGet_set, if_true]
          refine ⟨by trivial, by trivial, fun n hn => ⟨by simp [hn], by trivial⟩, .inr ⟨e, rfl, by simp, .inl ⟨?_, .inr (.inl (by simp))⟩⟩⟩
          simp [hf]
    | none =>
      simp only [resolveL]
      cases hp : functionClassPath ns.toList with
      | none => simp
      | some path =>
        simp only []
        cases hi : imp path with
        | error e =>
          simp only []
          by_cases he : e = .importError ∨ e = .attributeError
          · simp only [he, if_true, FunctionMap.setItem, dictGet_set]
            refine ⟨by trivial, by trivial, fun n hn => ⟨by simp [hn], by trivial⟩, .inr ⟨_, rfl, by simp, .inl ⟨?_, .inr (.inr rfl)⟩⟩⟩
            simp [hf]
          · simp [he]
        | ok f =>
          simp only []
          cases ho : f ns.toList with
          | error e => simp
          | ok out =>
            cases out with
            | none => simp
            | junk => simp [FunctionMap.setItem]
            | entry e =>
              simp only [FunctionMap.setItem, dictGet_set, if_true]
              refine ⟨by trivial, by trivial, fun n hn => ⟨by simp [hn], by simp [hn]⟩,
                .inr ⟨e, rfl, by simp, .inr ⟨path, f, by trivial, rfl, hi, ho, by simp⟩⟩⟩

theorem fmGet_eq (imp : Importer) (m : FunctionMap) (ns : String) : (m.get imp ns).1 = fmOutcome imp m ns :=
  (fmGet_spec imp m ns).1

/-- A lookup changes no outcome. -/
theorem fmOutcome_load (imp : Importer) (m : FunctionMap) (ns n : String) :
    fmOutcome imp (m.loadFunction imp ns).2 n = fmOutcome imp m n := by
  obtain ⟨_, h0, h1, h2⟩ := fmGet_spec imp m ns
  rw [← h0]
  by_cases hn : n = ns
  · subst hn
    rcases h2 with ⟨x, _, h⟩ | ⟨e, he, h, _⟩
    · rw [h]
    · rw [he]; unfold fmOutcome; rw [h]
  · unfold fmOutcome
    rw [(h1 n hn).1, (h1 n hn).2]

theorem fmOutcome_loadAll (imp : Importer) (l : List String) (m : FunctionMap) (n : String) :
    fmOutcome imp (m.loadAll imp l).2 n = fmOutcome imp m n := by
  induction l generalizing m with
  | nil => rfl
  | cons a l ih =>
    have h := fmOutcome_load imp m a n
    simp only [FunctionMap.loadAll]
    rcases hr : m.loadFunction imp a with ⟨r, m'⟩
    rw [hr] at h
    cases r with
    | error e => exact h
    | ok u => exact (ih m').trans h

/-- The function a policy's element gets. -/
theorem loadWith_eq (imp : Importer) (customs) (m : FunctionMap) (ns : String) :
    loadWith imp customs m ns = match fmOutcome imp m ns with
      | .error e => .error e
      | .ok .notImplemented => .error .unsupportedStdFunctionError
      | .ok (.cls c) => .ok (c.toFunc customs) := by
  rw [← fmGet_eq]
  simp only [loadWith, FnHolder.setIdent, FnHolder.setFunctionFromMap, if_true]
  rcases m.get imp ns with ⟨r, m'⟩
  cases r with
  | error e => rfl
  | ok e => cases e <;> rfl

theorem loadWith_mono {imp imp' customs} {m m' : FunctionMap} {ns : String}
    (h : ∀ c, fmOutcome imp m ns = .ok (.cls c) → fmOutcome imp' m' ns = .ok (.cls c)) (f)
    (hf : loadWith imp customs m ns = .ok f) : loadWith imp' customs m' ns = .ok f := by
  rw [loadWith_eq] at hf ⊢
  cases ho : fmOutcome imp m ns with
  | error e => rw [ho] at hf; cases hf
  | ok e =>
    cases e with
    | notImplemented => rw [ho] at hf; cases hf
    | cls c => rw [ho] at hf; rw [h c ho]; exact hf

/-! ## The class map -/

theorem registerClass_get (m : List (String × AVClass)) (i : String) (c : AVClass) (o : Bool) (j : String) :
    (registerClass m i c o).lookup j = if i = j ∧ (o = true ∨ m.lookup j = none) then some c else m.lookup j := by
  simp only [lookup_eq_dictGet, registerClass]
  by_cases hij : i = j
  · subst hij
    cases o with
    | true => simp [dictGet_set]
    | false =>
      cases hg : dictGet m i with
      | none => simp [dictGet_set]
      | some x => simp [hg]
  · simp only [hij, false_and, if_false]
    split
    · rw [dictGet_set, if_neg (Ne.symm hij)]
    · split
      · rw [dictGet_set, if_neg (Ne.symm hij)]
      · rfl

/-- `registerClass` is `addClass` of C37, for strings and classes. -/
theorem registerClass_addClass (m : List (String × AVClass)) (i : String) (c : AVClass) (o : Bool) :
    addClass (m.map fun p => (.str p.1, .cls p.2)) (.str i) (.cls c) o =
      (.ok (), (registerClass m i c o).map fun p => (.str p.1, .cls p.2)) := by
  have hget : ∀ m : List (String × AVClass),
      dictGet (m.map fun p => (RegKey.str p.1, RegValue.cls p.2)) (.str i) = (dictGet m i).map .cls := by
    intro m
    induction m with
    | nil => rfl
    | cons p m ih =>
      simp only [List.map, dictGet, ih]
      by_cases h : p.1 = i
      · simp [h]
      · have h1 : (p.1 == i) = false := by simpa using h
        have h2 : (RegKey.str p.1 == RegKey.str i) = false := by simpa using h
        simp [h1, h2]
  have hset : ∀ m : List (String × AVClass),
      dictSet (m.map fun p => (RegKey.str p.1, RegValue.cls p.2)) (.str i) (.cls c) =
        (dictSet m i c).map fun p => (RegKey.str p.1, RegValue.cls p.2) := by
    intro m
    induction m with
    | nil => rfl
    | cons p m ih =>
      simp only [List.map, dictSet, ih]
      by_cases h : p.1 = i
      · simp [h]
      · have h1 : (p.1 == i) = false := by simpa using h
        have h2 : (RegKey.str p.1 == RegKey.str i) = false := by simpa using h
        simp [h1, h2]
  cases o with
  | true => simp [addClass, registerClass, vdSet, Filters.verify, classFilters, dictSet, vdUpdate, hset]
  | false =>
    cases hg : dictGet m i with
    | none =>
      simp [addClass, registerClass, vdSet, Filters.verify, classFilters, dictSet, vdUpdate, hset, hget, hg, List.filter]
    | some x =>
      simp [addClass, registerClass, vdSet, Filters.verify, classFilters, dictSet, vdUpdate, hget, hg, List.filter]

/-! ## The factories of the package under a larger class map -/

theorem baseFactory_mono {cm cm' : List (String × AVClass)} (h : Keeps (fun i => cm.lookup i) (fun i => cm'.lookup i))
    {fam sfx l e} (hf : baseFactory cm fam sfx l = .ok (.entry e)) : baseFactory cm' fam sfx l = .ok (.entry e) := by
  unfold baseFactory at hf ⊢
  cases hu : functionTypeURI sfx l with
  | error x => rw [hu] at hf; cases hf
  | ok u =>
    rw [hu] at hf
    simp only [classLookup] at hf ⊢
    cases ht : cm.lookup u with
    | none => rw [ht] at hf; cases hf
    | some t => rw [ht] at hf; rw [show cm'.lookup u = some t from h u t ht]; exact hf

/-- Association lists with the same keys and related values. -/
inductive SameKeys {α} (R : α → α → Prop) : List (List Char × α) → List (List Char × α) → Prop
  | nil : SameKeys R [] []
  | cons {k v v' l l'} : R v v' → SameKeys R l l' → SameKeys R ((k, v) :: l) ((k, v') :: l')

theorem SameKeys.lookup {α} {R : α → α → Prop} {l l'} (h : SameKeys R l l') (k : List Char) :
    (l.lookup k = none ∧ l'.lookup k = none) ∨ ∃ v v', l.lookup k = some v ∧ l'.lookup k = some v' ∧ R v v' := by
  induction h with
  | nil => exact .inl ⟨rfl, rfl⟩
  | @cons k' v v' l l' hr _ ih =>
    simp only [List.lookup]
    cases k == k' with
    | true => exact .inr ⟨v, v', rfl, rfl, hr⟩
    | false => exact ih

theorem stdImporter_mono {cm cm' : List (String × AVClass)} (h : Keeps (fun i => cm.lookup i) (fun i => cm'.lookup i))
    (hs : (cm.lookup (xsd "string")).isSome) (path : List Char) :
    (∃ x, stdImporter cm path = .error x ∧ stdImporter cm' path = .error x) ∨
    (∃ f f', stdImporter cm path = .ok f ∧ stdImporter cm' path = .ok f' ∧
      ∀ l e, f l = .ok (.entry e) → f' l = .ok (.entry e)) := by
  obtain ⟨s, hs⟩ := Option.isSome_iff_exists.mp hs
  have hs' : cm'.lookup (xsd "string") = some s := h _ _ hs
  let R : Except Exc Factory → Except Exc Factory → Prop := fun a b =>
    ∃ f f', a = .ok f ∧ b = .ok f' ∧ ∀ l e, f l = .ok (.entry e) → f' l = .ok (.entry e)
  have b : ∀ fam sfx, R (.ok (baseFactory cm fam sfx)) (.ok (baseFactory cm' fam sfx)) :=
    fun _ _ => ⟨_, _, rfl, rfl, fun _ _ => baseFactory_mono h⟩
  have x : ∀ f, R (.ok f) (.ok f) := fun f => ⟨f, f, rfl, rfl, fun _ _ h => h⟩
  unfold stdImporter
  simp only [classLookup, hs, hs']
  rcases SameKeys.lookup (R := R) (.cons (x _) (.cons (b _ _) (.cons (b _ _) (.cons (b _ _) (.cons (b _ _) (.cons (x _)
    (.cons (b _ _) (.cons (x _) (.cons (x _) (.cons (b _ _) (.cons (b _ _) .nil))))))))))) path with
    ⟨h1, h2⟩ | ⟨v, v', h1, h2, f, f', rfl, rfl, hf⟩
  · exact .inl ⟨.importError, by rw [h1], by rw [h2]⟩
  · exact .inr ⟨f, f', by rw [h1], by rw [h2], hf⟩

/-- Under a larger class map the package's functions are the same, and there may be more. -/
theorem resolveL_mono (ext : Importer) {p p' : Package}
    (h : Keeps (fun i => p.classMap.lookup i) (fun i => p'.classMap.lookup i))
    (hs : (p.classMap.lookup (xsd "string")).isSome) (l : List Char) (c : FnClass)
    (hr : resolveL (p.importer ext) l = .ok (.cls c)) : resolveL (p'.importer ext) l = .ok (.cls c) := by
  unfold resolveL at hr ⊢
  cases hp : functionClassPath l with
  | none => rw [hp] at hr; cases hr
  | some path =>
    rw [hp] at hr
    simp only [Package.importer] at hr ⊢
    rcases stdImporter_mono h hs path with ⟨x, h1, h2⟩ | ⟨f, f', h1, h2, hf⟩
    · simp only [h1] at hr; simp only [h2]; exact hr
    · simp only [h1] at hr; simp only [h2]
      cases ho : f l with
      | error x => rw [ho] at hr; cases hr
      | ok out =>
        cases out with
        | none => rw [ho] at hr; cases hr
        | junk => rw [ho] at hr; cases hr
        | entry e => rw [ho] at hr; rw [hf l e ho]; exact hr

theorem fmOutcome_mono (ext : Importer) {p p' : Package}
    (h : Keeps (fun i => p.classMap.lookup i) (fun i => p'.classMap.lookup i))
    (hs : (p.classMap.lookup (xsd "string")).isSome) (m : FunctionMap) (ns : String) (c : FnClass)
    (hr : fmOutcome (p.importer ext) m ns = .ok (.cls c)) : fmOutcome (p'.importer ext) m ns = .ok (.cls c) := by
  unfold fmOutcome at hr ⊢
  cases hst : dictGet m.store ns with
  | some e => rw [hst] at hr; exact hr
  | none =>
    rw [hst] at hr
    simp only at hr ⊢
    cases hf : dictGet m.factories ns with
    | some f => rw [hf] at hr; exact hr
    | none => rw [hf] at hr; exact resolveL_mono ext h hs _ _ hr

/-! ## The registries of a program -/

theorem enlarges_refl (rd : RdEnv) : Enlarges rd rd := ⟨fun _ _ h => h, fun _ _ h => h, fun _ _ h => h⟩

theorem enlarges_trans {a b c : RdEnv} (h : Enlarges a b) (h' : Enlarges b c) : Enlarges a c :=
  ⟨fun k v hv => h'.classes k v (h.classes k v hv), fun k v hv => h'.readers k v (h.readers k v hv),
    fun n f hf => h'.functions n f (h.functions n f hf)⟩

/-- No call removes a class. -/
theorem step_known (ext : Importer) (p : Package) (e : ExtEvent) (i : String) (h : (p.classMap.lookup i).isSome) :
    ((e.step ext p).classMap.lookup i).isSome := by
  cases e with
  | addClass j c o =>
    simp only [ExtEvent.step, registerClass_get]
    split
    · rfl
    · exact h
  | addReader j r => exact h
  | function e => exact h

theorem run_known (ext : Importer) (es : List ExtEvent) (p : Package) (i : String) (h : (p.classMap.lookup i).isSome) :
    ((p.run ext es).classMap.lookup i).isSome := by
  induction es generalizing p with
  | nil => exact h
  | cons e es ih => exact ih _ (step_known ext p e i h)

theorem adds_enlarges {ext : Importer} {customs} {p : Package} {e : ExtEvent} (ha : Adds ext p e)
    (hs : (p.classMap.lookup (xsd "string")).isSome) :
    Enlarges (p.readers ext customs) ((e.step ext p).readers ext customs) := by
  have cls : ∀ i c o, (o = true → p.classMap.lookup i = none) →
      Enlarges (p.readers ext customs) ((ExtEvent.addClass i c o).step ext p |>.readers ext customs) := by
    intro i c o ho
    have hk : Keeps (fun i => p.classMap.lookup i) (fun j => (registerClass p.classMap i c o).lookup j) := by
      intro j v hv
      simp only at hv ⊢
      rw [registerClass_get, if_neg]
      · exact hv
      · rintro ⟨rfl, h | h⟩
        · rw [ho h] at hv; cases hv
        · rw [h] at hv; cases hv
    refine ⟨hk, fun _ _ h => h, fun ns f hf => ?_⟩
    refine loadWith_mono (fun c' hc => ?_) f hf
    exact fmOutcome_mono ext (p' := (ExtEvent.addClass i c o).step ext p) hk hs _ _ _ hc
  cases ha with
  | newClass h => exact cls _ _ _ fun _ => h
  | class_ => exact cls _ _ _ fun h => nomatch h
  | @reader i r h =>
    refine ⟨fun _ _ h => h, fun j v hv => ?_, fun _ _ h => h⟩
    show dictGet (dictSet p.dtReaders i r) j = some v
    rw [dictGet_set, if_neg]
    · exact hv
    · rintro rfl
      rw [show dictGet p.dtReaders j = some v from hv] at h
      cases h
  | lookup =>
    rename_i ns
    refine ⟨fun _ _ h => h, fun _ _ h => h, fun n f hf => loadWith_mono (fun c hc => ?_) f hf⟩
    show fmOutcome (p.importer ext) (p.functions.get (p.importer ext) ns).2 n = _
    rw [(fmGet_spec _ _ _).2.1, fmOutcome_load]; exact hc
  | loadAll =>
    refine ⟨fun _ _ h => h, fun _ _ h => h, fun n f hf => loadWith_mono (fun c hc => ?_) f hf⟩
    show fmOutcome (p.importer ext) (p.functions.loadAll (p.importer ext) stdFunctionNames).2 n = _
    rw [fmOutcome_loadAll]; exact hc
  | @custom ns a h =>
    refine ⟨fun _ _ h => h, fun _ _ h => h, fun n f hf => loadWith_mono (fun c hc => ?_) f hf⟩
    show fmOutcome (p.importer ext) (p.functions.loadCustom (p.importer ext) ns a).2 n = _
    have hn : n ≠ ns := by
      rintro rfl
      exact h c (by rw [fmGet_eq]; exact hc)
    rcases loadCustom_cases (p.importer ext) p.functions ns a with ⟨e, _, he⟩ | ⟨_, x, he⟩
    · rw [he]
      unfold fmOutcome at hc ⊢
      simp only [dictGet_set, hn, if_false]
      exact hc
    · rw [he]; exact hc

theorem addsOnly_enlarges {ext : Importer} {customs} {p : Package} {es : List ExtEvent} (ha : AddsOnly ext p es)
    (hs : (p.classMap.lookup (xsd "string")).isSome) :
    Enlarges (p.readers ext customs) ((p.run ext es).readers ext customs) := by
  induction ha with
  | done => exact enlarges_refl _
  | @call p e es h _ ih => exact enlarges_trans (adds_enlarges h hs) (ih (step_known ext p e _ hs))

end Xacml
