import Verif.Lemmas.Split
import Verif.Spec.Modules

/-!
# C78, C79, C80: importing objects by name and finding readers
-/
namespace Xacml
open Spec

private theorem split_plain {n : List Char} (h : '.' ∉ n) : strSplit ['.'] n = [n] := by
  induction n with
  | nil => rfl
  | cons c n ih =>
    simp only [List.mem_cons, not_or] at h
    have hp : ¬ ['.'] <+: c :: n := by
      rintro ⟨t, ht⟩
      simp only [List.cons_append, List.nil_append, List.cons.injEq] at ht
      exact h.1 ht.1
    obtain ⟨p, ps, h1, h2⟩ := split_cons hp
    rw [ih h.2] at h1
    rw [h2]
    cases h1
    rfl

private theorem split_dot {x r : List Char} (h : '.' ∉ x) : strSplit ['.'] (x ++ '.' :: r) = x :: strSplit ['.'] r := by
  induction x with
  | nil => exact split_sep (sep := ['.']) (by simp)
  | cons c x ih =>
    simp only [List.mem_cons, not_or] at h
    have hp : ¬ ['.'] <+: c :: (x ++ '.' :: r) := by
      rintro ⟨t, ht⟩
      simp only [List.cons_append, List.nil_append, List.cons.injEq] at ht
      exact h.1 ht.1
    obtain ⟨p, ps, h1, h2⟩ := split_cons hp
    rw [ih h.2] at h1
    rw [List.cons_append, h2]
    cases h1
    rfl

private theorem dotted_cons (m : List Char) {ms : List (List Char)} (h : ms ≠ []) :
    dotted (m :: ms) = m ++ '.' :: dotted ms := by
  cases ms with
  | nil => exact absurd rfl h
  | cons a ms => simp [dotted, List.intercalate, List.intersperse]

private theorem dotted_one (m : List Char) : dotted [m] = m := by simp [dotted, List.intercalate]

private theorem dotted_snoc {ms : List (List Char)} (h : ms ≠ []) (o : List Char) :
    dotted (ms ++ [o]) = dotted ms ++ '.' :: o := by
  induction ms with
  | nil => exact absurd rfl h
  | cons m ms ih =>
    by_cases hm : ms = []
    · subst hm; simp [dotted_one, dotted_cons]
    · rw [List.cons_append, dotted_cons m (by simp), ih hm, dotted_cons m hm, List.append_assoc, List.cons_append]

private theorem split_dotted {ms : List (List Char)} (h : ms ≠ []) (hp : ∀ m ∈ ms, '.' ∉ m) :
    strSplit ['.'] (dotted ms) = ms := by
  induction ms with
  | nil => exact absurd rfl h
  | cons m ms ih =>
    by_cases hm : ms = []
    · subst hm; rw [dotted_one, split_plain (hp m (by simp))]
    · rw [dotted_cons m hm, split_dot (hp m (by simp)), ih hm fun x hx => hp x (by simp [hx])]

private theorem colon_dotted {ms : List (List Char)} (hp : ∀ m ∈ ms, Plain m) : ':' ∉ dotted ms := by
  induction ms with
  | nil => simp [dotted, List.intercalate]
  | cons m ms ih =>
    have h1 := (hp m (by simp)).2
    have h2 := ih fun x hx => hp x (by simp [hx])
    by_cases hm : ms = []
    · subst hm; rwa [dotted_one]
    · rw [dotted_cons m hm]
      simp [h1, h2]

private theorem dropWhile_ne {sep : Char} {o : List Char} (h : sep ∉ o) (t : List Char) :
    (o ++ sep :: t).dropWhile (· != sep) = sep :: t ∧ (o ++ sep :: t).takeWhile (· != sep) = o := by
  induction o with
  | nil => simp
  | cons c o ih =>
    simp only [List.mem_cons, not_or] at h
    have hc : (c != sep) = true := by simpa using Ne.symm h.1
    have := ih h.2
    simp [hc, this]

private theorem rsplit_last (sep : Char) (m : List Char) {o : List Char} (h : sep ∉ o) :
    rsplitOnce sep (m ++ sep :: o) = some (m, o) := by
  have hr : (m ++ sep :: o).reverse = o.reverse ++ sep :: m.reverse := by simp
  have := dropWhile_ne (sep := sep) (o := o.reverse) (by simpa using h) m.reverse
  rw [rsplitOnce, hr, this.1, this.2]
  simp

private theorem rsplit_none {sep : Char} {m : List Char} (h : sep ∉ m) : rsplitOnce sep m = none := by
  have : m.reverse.dropWhile (· != sep) = [] := by
    have hr : sep ∉ m.reverse := by simpa using h
    generalize m.reverse = l at hr ⊢
    induction l with
    | nil => rfl
    | cons c l ih =>
      simp only [List.mem_cons, not_or] at hr
      have hc : (c != sep) = true := by simpa using Ne.symm hr.1
      simp [hc, ih hr.2]
  rw [rsplitOnce, this]

private theorem getAttrs_append {Obj : Type} (w : PyWorld Obj) (as bs : List (List Char)) : ∀ o,
    getAttrs w o (as ++ bs) = (getAttrs w o as).bind fun x => getAttrs w x bs := by
  induction as with
  | nil => intro o; rfl
  | cons a as ih =>
    intro o
    simp only [List.cons_append, getAttrs]
    cases w.attr o a with
    | none => rfl
    | some o' => exact ih o'

private theorem getAttrs_ok {Obj : Type} (w : PyWorld Obj) (as : List (List Char)) : ∀ o x,
    getAttrs w o as = .ok x ↔ Reaches w o as x := by
  induction as with
  | nil =>
    intro o x
    constructor
    · intro h; cases h; exact .here
    · intro h; cases h; rfl
  | cons a as ih =>
    intro o x
    rw [getAttrs]
    constructor
    · intro h
      cases ho : w.attr o a with
      | none => rw [ho] at h; cases h
      | some o' => rw [ho] at h; exact .step ho ((ih o' x).1 h)
    · intro h
      cases h with
      | step h1 h2 => rw [h1]; exact (ih _ x).2 h2

private theorem getAttrs_error {Obj : Type} (w : PyWorld Obj) (as : List (List Char)) : ∀ o,
    (¬ ∃ x, Reaches w o as x) → getAttrs w o as = .error .attributeError := by
  induction as with
  | nil => intro o h; exact absurd ⟨o, .here⟩ h
  | cons a as ih =>
    intro o h
    rw [getAttrs]
    cases ho : w.attr o a with
    | none => rfl
    | some o' => exact ih o' fun ⟨x, hx⟩ => h ⟨x, .step ho hx⟩

/-- What `importModuleObject` does once the name is taken apart. -/
private theorem import_eq {Obj : Type} (w : PyWorld Obj) (path : List (List Char)) {name : List Char} {obj : Option (List Char)}
    {mods names : List (List Char)} (hm : mods ≠ []) (hp : ∀ m ∈ mods, Plain m)
    (hs : splitObjectName name obj = .ok (dotted mods, names)) :
    importModuleObject w path name obj none =
      (w.importTop path (dotted mods)).bind fun top => getAttrs w top (mods.tail ++ names) := by
  rw [importModuleObject, hs]
  simp only [bind, Except.bind]
  cases w.importTop path (dotted mods) with
  | error e => rfl
  | ok top =>
    simp only [split_dotted hm fun m h => (hp m h).1, List.drop_one]
    rw [getAttrs_append]
    cases getAttrs w top mods.tail with
    | error e => rfl
    | ok x =>
      simp only [Except.bind]
      cases getAttrs w x names <;> rfl

private theorem denotes_iff {Obj : Type} (w : PyWorld Obj) (path : List (List Char)) {name : List Char} {obj : Option (List Char)}
    {mods names : List (List Char)} (hm : mods ≠ []) (hp : ∀ m ∈ mods, Plain m)
    (hs : splitObjectName name obj = .ok (dotted mods, names)) (x : Obj) :
    importModuleObject w path name obj none = .ok x ↔ ObjectAt w path mods names x := by
  rw [import_eq w path hm hp hs, ObjectAt]
  constructor
  · intro h
    cases ht : w.importTop path (dotted mods) with
    | error e => rw [ht] at h; cases h
    | ok top => rw [ht] at h; exact ⟨top, rfl, (getAttrs_ok ..).1 h⟩
  · rintro ⟨top, ht, hr⟩
    rw [ht]
    exact (getAttrs_ok ..).2 hr

private theorem split_object {mods : List (List Char)} (o : List Char) :
    splitObjectName (dotted mods) (some o) = .ok (dotted mods, [o]) := rfl

private theorem split_path {mods : List (List Char)} (hm : mods ≠ []) (hp : ∀ m ∈ mods, Plain m) {o : List Char} (ho : Plain o) :
    splitObjectName (dotted (mods ++ [o])) none = .ok (dotted mods, [o]) := by
  have hc : ':' ∉ dotted (mods ++ [o]) := colon_dotted fun m h => by
    rcases List.mem_append.1 h with h | h
    · exact hp m h
    · rw [List.mem_singleton.1 h]; exact ho
  have hc' : (dotted (mods ++ [o])).contains ':' = false := by simpa using hc
  simp only [splitObjectName, hc', Bool.false_eq_true, if_false]
  rw [dotted_snoc hm, rsplit_last '.' _ ho.1]

private theorem split_colon {mods names : List (List Char)} (hn : names ≠ [])
    (hpn : ∀ m ∈ names, Plain m) : splitObjectName (dotted mods ++ ':' :: dotted names) none = .ok (dotted mods, names) := by
  have hc' : (dotted mods ++ ':' :: dotted names).contains ':' = true := by simp
  simp only [splitObjectName, hc', if_true]
  rw [rsplit_last ':' _ (colon_dotted hpn)]
  simp only
  congr 2
  by_cases hd : '.' ∈ dotted names
  · rw [if_pos (by simpa using hd), split_dotted hn fun m h => (hpn m h).1]
  · rw [if_neg (by simpa using hd)]
    have := split_dotted hn fun m h => (hpn m h).1
    rw [split_plain hd] at this
    exact this

/-- C78: `importModuleObject("a.b", "C")`, `importModuleObject("a.b.C")` and
`importModuleObject("a.b:C")` all return the object that is called `C` in the module `a.b`, and only if
there is one. -/
theorem C78_spellings {Obj : Type} (w : PyWorld Obj) (path mods : List (List Char)) (hm : mods ≠ []) (hp : ∀ m ∈ mods, Plain m)
    (o : List Char) (ho : Plain o) (x : Obj) :
    (importModuleObject w path (dotted mods) (some o) none = .ok x ↔ ObjectAt w path mods [o] x) ∧
    (importModuleObject w path (dotted (mods ++ [o])) none none = .ok x ↔ ObjectAt w path mods [o] x) ∧
    (importModuleObject w path (dotted mods ++ ':' :: o) none none = .ok x ↔ ObjectAt w path mods [o] x) := by
  refine ⟨denotes_iff w path hm hp (split_object o) x, denotes_iff w path hm hp (split_path hm hp ho) x, ?_⟩
  have h := split_colon (mods := mods) (names := [o]) (by simp) (by simpa using ho)
  rw [dotted_one] at h
  exact denotes_iff w path hm hp h x

/-- C78: `importModuleObject("a.b:C.d")` returns what is called `d` in what is called `C` there. -/
theorem C78_nested {Obj : Type} (w : PyWorld Obj) (path mods names : List (List Char)) (hm : mods ≠ []) (hp : ∀ m ∈ mods, Plain m)
    (hn : names ≠ []) (hpn : ∀ m ∈ names, Plain m) (x : Obj) :
    importModuleObject w path (dotted mods ++ ':' :: dotted names) none none = .ok x ↔ ObjectAt w path mods names x :=
  denotes_iff w path hm hp (split_colon hn hpn) x

/-- C78: if the module cannot be imported, the import's exception is raised; if it can but there is no
such object, AttributeError. -/
theorem C78_errors {Obj : Type} (w : PyWorld Obj) (path mods names : List (List Char)) (hm : mods ≠ []) (hp : ∀ m ∈ mods, Plain m)
    (hn : names ≠ []) (hpn : ∀ m ∈ names, Plain m) :
    (∀ e, w.importTop path (dotted mods) = .error e →
      importModuleObject w path (dotted mods ++ ':' :: dotted names) none none = .error e) ∧
    (∀ top, w.importTop path (dotted mods) = .ok top → (¬ ∃ x, ObjectAt w path mods names x) →
      importModuleObject w path (dotted mods ++ ':' :: dotted names) none none = .error .attributeError) := by
  rw [import_eq w path hm hp (split_colon hn hpn)]
  constructor
  · intro e he; rw [he]; rfl
  · intro top ht hx
    rw [ht]
    exact getAttrs_error _ _ _ fun ⟨x, h⟩ => hx ⟨x, top, ht, h⟩

/-- C78: with an expected type only its subclasses are returned, and those are. -/
theorem C78_type {Obj : Type} (w : PyWorld Obj) (path : List (List Char)) (name : List Char) (o : Option (List Char)) (t x : Obj) :
    importModuleObject w path name o (some t) = .ok x ↔
      importModuleObject w path name o none = .ok x ∧ w.subclass x t = .ok true := by
  rw [importModuleObject, importModuleObject]
  simp only [bind, Except.bind]
  cases splitObjectName name o with
  | error e => simp
  | ok p =>
    simp only
    cases w.importTop path p.1 with
    | error e => simp
    | ok top =>
      simp only
      cases getAttrs w top ((strSplit ['.'] p.1).drop 1) with
      | error e => simp
      | ok m =>
        simp only
        cases getAttrs w m p.2 with
        | error e => simp
        | ok y =>
          simp only
          constructor
          · intro h
            cases hs : w.subclass y t with
            | error e => rw [hs] at h; cases h
            | ok b =>
              rw [hs] at h
              cases b with
              | false => cases h
              | true => cases h; exact ⟨rfl, hs⟩
          · rintro ⟨h1, h2⟩
            cases h1
            rw [h2]; rfl

/-- C78: a name without dot and colon is refused. -/
theorem C78_bare {Obj : Type} (w : PyWorld Obj) (path : List (List Char)) (name : List Char) (h : Plain name) (t : Option Obj) :
    importModuleObject w path name none t = .error .valueError := by
  have hc : name.contains ':' = false := by simpa using h.2
  have : splitObjectName name none = .error .valueError := by
    simp only [splitObjectName, hc, Bool.false_eq_true, if_false, rsplit_none h.1]
  rw [importModuleObject, this]
  rfl

/-! ## C79: the search path -/

private theorem append_dirs {s : SysPath} (hs : s.cur < s.lists.length) (d : List Char) :
    (s.append d).dirs = s.dirs ++ [d] := by
  simp [SysPath.append, SysPath.dirs, hs]

private theorem call_state {Obj : Type} (w : PyWorld Obj) (s : SysPath) (a : CallArgs Obj) :
    (callModuleObject w s a).2 = match addedDir w a with | none => s | some d => s.append d := by
  have h1 : (callModuleObject w s a).2 = (importOnPath w s a).2 := by
    rw [callModuleObject]
    rcases importOnPath w s a with ⟨_ | _, _⟩ <;> rfl
  rw [h1, importOnPath, addedDir]
  cases a.moduleFilePath with
  | none => rfl
  | some d =>
    by_cases hd : d = []
    · simp [hd]
    · cases he : w.exists_ d with
      | false => simp [hd, he]
      | true =>
        by_cases hb : (s.append d).lists[s.cur]?.getD [] = []
        · simp [hd, he, hb]
        · simp only [SysPath.append] at hb
          simp [hd, he, SysPath.append, hb]

private theorem call_wf {Obj : Type} (w : PyWorld Obj) {s : SysPath} (hs : s.cur < s.lists.length) (a : CallArgs Obj) :
    (callModuleObject w s a).2.cur < (callModuleObject w s a).2.lists.length := by
  rw [call_state]
  cases addedDir w a with
  | none => exact hs
  | some d => simpa [SysPath.append] using hs

/-- C79, violated: a call that is given an existing directory leaves it on the search path, whether it
succeeds or fails. -/
theorem C79_violated {Obj : Type} (w : PyWorld Obj) (s : SysPath) (hs : s.cur < s.lists.length) (a : CallArgs Obj)
    (d : List Char) (hd : a.moduleFilePath = some d) (hne : d ≠ []) (he : w.exists_ d = true) :
    (callModuleObject w s a).2.dirs = s.dirs ++ [d] ∧ (callModuleObject w s a).2.dirs ≠ s.dirs := by
  have : addedDir w a = some d := by simp [addedDir, hd, hne, he]
  rw [call_state, this]
  simp [append_dirs hs]

/-- C79: without a directory, or with one that does not exist, the search path stays as it is. -/
theorem C79_partial {Obj : Type} (w : PyWorld Obj) (s : SysPath) (a : CallArgs Obj)
    (h : ∀ d, a.moduleFilePath = some d → d ≠ [] → w.exists_ d = false) : (callModuleObject w s a).2 = s := by
  have : addedDir w a = none := by
    rw [addedDir]
    cases hd : a.moduleFilePath with
    | none => rfl
    | some d =>
      by_cases hne : d = []
      · simp [hne]
      · simp [h d hd hne]
  rw [call_state, this]

/-- C79: after any history of calls the search path has grown by exactly the existing directories they
were given, repetitions included. -/
theorem C79_history {Obj : Type} (w : PyWorld Obj) (s : SysPath) (hs : s.cur < s.lists.length) (as : List (CallArgs Obj)) :
    (callAll w s as).dirs = s.dirs ++ as.filterMap (addedDir w) := by
  rw [callAll]
  induction as generalizing s with
  | nil => simp
  | cons a as ih =>
    rw [List.foldl_cons, ih _ (call_wf w hs a), call_state]
    cases h : addedDir w a with
    | none => simp [h]
    | some d => simp [h, append_dirs hs]

/-- C79: what is called is the object with that name, the given directory being searched last; a
directory that does not exist is an IOError. -/
theorem C79_result {Obj : Type} (w : PyWorld Obj) (s : SysPath) (hs : s.cur < s.lists.length) (a : CallArgs Obj) :
    (∀ d, a.moduleFilePath = some d → d ≠ [] → w.exists_ d = false → (callModuleObject w s a).1 = .error ioError) ∧
    ((∀ d, a.moduleFilePath = some d → d ≠ [] → w.exists_ d = true) →
      (callModuleObject w s a).1 =
        (importModuleObject w (s.dirs ++ (addedDir w a).toList) a.moduleName a.objectName a.objectType).bind
          fun f => w.call f a.objectArgs a.objectProperties) := by
  have key : (∀ d, a.moduleFilePath = some d → d ≠ [] → w.exists_ d = true) → (importOnPath w s a).1 =
      importModuleObject w (s.dirs ++ (addedDir w a).toList) a.moduleName a.objectName a.objectType := by
    intro h
    rw [importOnPath, addedDir]
    cases hd : a.moduleFilePath with
    | none => simp
    | some d =>
      by_cases hne : d = []
      · simp [hne]
      · simp [hne, h d hd hne, append_dirs hs]
  constructor
  · intro d hd hne he
    have : importOnPath w s a = (.error ioError, s) := by simp [importOnPath, hd, hne, he]
    rw [callModuleObject, this]
  · intro h
    rw [← key h, callModuleObject]
    rcases importOnPath w s a with ⟨_ | _, _⟩ <;> rfl

/-! ## C80: readers -/

private theorem get_dictSet {Obj : Type} [DecidableEq Obj] (m : List (Obj × Obj)) (k v t : Obj) :
    dictGet (dictSet m k v) t = if k = t then some v else dictGet m t := by
  induction m with
  | nil => by_cases h : k = t <;> simp [dictSet, dictGet, h]
  | cons x m ih =>
    rcases x with ⟨k', w⟩
    rw [dictSet]
    by_cases hk : k' = k
    · subst hk; by_cases h : k' = t <;> simp [dictGet, h]
    · have : (k' == k) = false := by simpa using hk
      by_cases h : k' = t
      · have : k ≠ t := fun h' => hk (h.trans h'.symm)
        subst h
        simp [*, dictGet]
      · simp [this, dictGet, h, ih]

private theorem get_add {Obj : Type} [DecidableEq Obj] (c : ClassFacts Obj) (m : List (Obj × Obj)) (k v t : Obj) :
    dictGet (addReader c m k v).2 t =
      if (decide (k = t) && saysYes (c.isXacml k) && saysYes (c.isReader v)) = true then some v else dictGet m t := by
  simp only [addReader, vdSet, Filters.verify, readerFilters]
  rcases hk : c.isXacml k with e | b
  · simp [saysYes]
  · cases b with
    | false => simp [saysYes]
    | true =>
      simp only
      rcases hv : c.isReader v with e | b'
      · simp [saysYes]
      · cases b' with
        | false => simp [saysYes]
        | true => simp [get_dictSet, saysYes]

private theorem get_addReaders {Obj : Type} [DecidableEq Obj] (c : ClassFacts Obj) (t : Obj) (ps : List (Obj × Obj)) : ∀ m,
    dictGet (addReaders c m ps) t = (registeredReader c ps t).or (dictGet m t) := by
  induction ps with
  | nil => intro m; simp [addReaders, registeredReader]
  | cons p ps ih =>
    intro m
    have h1 : addReaders c m (p :: ps) = addReaders c (addReader c m p.1 p.2).2 ps := rfl
    rw [h1, ih, get_add]
    simp only [registeredReader, List.filter_cons]
    by_cases hp : (decide (p.1 = t) && saysYes (c.isXacml p.1) && saysYes (c.isReader p.2)) = true
    · rw [if_pos hp, if_pos hp, List.getLast?_cons]
      cases (ps.filter fun p => decide (p.1 = t) && saysYes (c.isXacml p.1) && saysYes (c.isReader p.2)).getLast? <;> simp
    · rw [if_neg hp, if_neg hp]

/-- C80: a type for which readers were registered gets the last one of them, whatever else was
registered or refused. -/
theorem C80_registered {Obj : Type} [DecidableEq Obj] (w : PyWorld Obj) (c : ClassFacts Obj) (path : List (List Char))
    (ps : List (Obj × Obj)) (t r : Obj) (h : registeredReader c ps t = some r) :
    getReader w c path (addReaders c [] ps) t = .ok r := by
  rw [getReader, get_addReaders, h]
  rfl

/-- C80: a type for which none was registered gets the class `<Name>Reader` of the module `<name>reader`. -/
theorem C80_inferred {Obj : Type} [DecidableEq Obj] (w : PyWorld Obj) (c : ClassFacts Obj) (path : List (List Char))
    (ps : List (Obj × Obj)) (t : Obj) (h : registeredReader c ps t = none) (hn : Plain (c.name t)) (r : Obj) :
    getReader w c path (addReaders c [] ps) t = .ok r ↔
      ObjectAt w path ["ndg".toList, "xacml".toList, "parsers".toList, "etree".toList, strLower (c.name t) ++ "reader".toList]
        [c.name t ++ "Reader".toList] r := by
  have hl : Plain (strLower (c.name t)) := by
    have : ∀ d : Char, (d = '.' ∨ d = ':') → d ∉ c.name t → d ∉ strLower (c.name t) := by
      intro d hd hc hm
      rcases mem_lower hm with ⟨x, hx, hxd⟩ | h0
      · have h1 := toLower_toNat x
        rw [← hxd] at h1
        have : x.toNat = d.toNat := by
          rcases hd with hd | hd <;> subst hd <;> split at h1 <;> simp_all <;> omega
        exact hc (char_toNat_inj this ▸ hx)
      · rcases hd with rfl | rfl <;> revert h0 <;> decide
    exact ⟨this _ (.inl rfl) hn.1, this _ (.inr rfl) hn.2⟩
  rw [getReader, get_addReaders, h]
  simp only [Option.or, dictGet]
  have hp : ∀ m ∈ ["ndg".toList, "xacml".toList, "parsers".toList, "etree".toList, strLower (c.name t) ++ "reader".toList],
      Plain m := by
    intro m hm
    simp only [List.mem_cons, List.not_mem_nil, or_false] at hm
    rcases hm with hm | hm | hm | hm | hm <;> subst hm
    · constructor <;> decide
    · constructor <;> decide
    · constructor <;> decide
    · constructor <;> decide
    · constructor
      · simpa using hl.1
      · simpa using hl.2
  have ho : Plain (c.name t ++ "Reader".toList) := by
    constructor
    · simpa using hn.1
    · simpa using hn.2
  have := (C78_spellings w path _ (by simp) hp (c.name t ++ "Reader".toList) ho r).2.1
  rw [← this]
  simp [dotted, List.intercalate]

/-- C80, violated: two types with the same name get the same reader unless one is registered. The
package has such pairs, for instance `ndg.xacml.core.subject.Subject` (of targets) and
`ndg.xacml.core.context.subject.Subject` (of requests). -/
theorem C80_violated {Obj : Type} [DecidableEq Obj] (w : PyWorld Obj) (c : ClassFacts Obj) (path : List (List Char))
    (ps : List (Obj × Obj)) (t t' : Obj) (h : c.name t = c.name t') (h1 : registeredReader c ps t = none)
    (h2 : registeredReader c ps t' = none) :
    getReader w c path (addReaders c [] ps) t = getReader w c path (addReaders c [] ps) t' := by
  rw [getReader, getReader, get_addReaders, get_addReaders, h1, h2, h]
  rfl

/-- Result of a lookup as a Boolean. -/
private def isOk (r : Except Exc (List (List Char))) (x : List (List Char)) : Bool :=
  match r with
  | .ok y => y == x
  | .error _ => false

private def isImportError (r : Except Exc (List (List Char))) : Bool :=
  match r with
  | .ok _ => false
  | .error e => e == .importError

private theorem isOk_eq {r : Except Exc (List (List Char))} {x : List (List Char)} (h : isOk r x = true) : r = .ok x := by
  cases r with
  | ok y => simp [isOk] at h; rw [h]
  | error e => cases h

private theorem isImportError_eq {r : Except Exc (List (List Char))} (h : isImportError r = true) : r = .error .importError := by
  cases r with
  | ok y => cases h
  | error e => simp [isImportError] at h; rw [h]

/-- C80: each of the package's element classes has its own reader. -/
theorem C80_package (path : List (List Char)) (n : String) (h : n ∈ elementClasses) :
    getReader packageWorld byName path [] [n.toList] =
      .ok ["ndg".toList, "xacml".toList, "parsers".toList, "etree".toList, n.toList.map Char.toLower ++ "reader".toList,
        n.toList ++ "Reader".toList] := by
  have hp : getReader packageWorld byName path [] [n.toList] = getReader packageWorld byName [] [] [n.toList] := rfl
  rw [hp]; clear hp
  refine isOk_eq ?_
  revert n
  decide +kernel

/-- C80, violated: there are no readers for EnvironmentMatch, EnvironmentAttributeDesignator, variables
and obligations: policies that contain them cannot be read. -/
theorem C80_violated_missing (path : List (List Char)) (n : String) (h : n ∈ elementClassesWithoutReader) :
    getReader packageWorld byName path [] [n.toList] = .error .importError := by
  have hp : getReader packageWorld byName path [] [n.toList] = getReader packageWorld byName [] [] [n.toList] := rfl
  rw [hp]; clear hp
  refine isImportError_eq ?_
  revert n
  decide +kernel

/-! ## Non-vacuity -/

/-- `C78_spellings`, `C78_nested`: names the package uses. -/
example : ObjectAt packageWorld [] ["ndg".toList, "xacml".toList, "parsers".toList, "etree".toList, "rulereader".toList]
    ["RuleReader".toList] ["ndg".toList, "xacml".toList, "parsers".toList, "etree".toList, "rulereader".toList, "RuleReader".toList] := by
  refine ⟨["ndg".toList], by rfl, ?_⟩
  refine .step (o' := ["ndg".toList, "xacml".toList]) (by decide +kernel) ?_
  refine .step (o' := ["ndg".toList, "xacml".toList, "parsers".toList]) (by decide +kernel) ?_
  refine .step (o' := ["ndg".toList, "xacml".toList, "parsers".toList, "etree".toList]) (by decide +kernel) ?_
  refine .step (o' := ["ndg".toList, "xacml".toList, "parsers".toList, "etree".toList, "rulereader".toList]) (by decide +kernel) ?_
  exact .step (by decide +kernel) .here

/-- `C78_bare`. -/
example : Plain "RuleReader".toList := by constructor <;> decide

/-- A world with one directory. -/
private def oneDir : PyWorld Nat where
  importTop p _ := if p.contains "/plugins".toList then .ok 0 else .error .importError
  attr _ _ := some 1
  subclass _ _ := .ok true
  exists_ d := d == "/plugins".toList
  call _ _ _ := .ok 2

/-- `C79_violated`, `C79_history`: a call that fails, because the directory is not given, succeeds later
on, because another call was given it. -/
example :
    let s : SysPath := ⟨[["/lib".toList]], 0⟩
    let plain : CallArgs Nat := { moduleName := "m.C".toList }
    let withDir : CallArgs Nat := { moduleName := "m.C".toList, moduleFilePath := some "/plugins".toList }
    s.cur < s.lists.length ∧ oneDir.exists_ "/plugins".toList = true ∧ addedDir oneDir withDir = some "/plugins".toList ∧
    (callModuleObject oneDir s plain).1.isOk = false ∧ (callModuleObject oneDir (callAll oneDir s [withDir]) plain).1.isOk = true ∧
    (callAll oneDir s [withDir, plain, withDir]).dirs = ["/lib".toList, "/plugins".toList, "/plugins".toList] := by
  refine ⟨by decide, by decide, by decide, by decide, by decide, by decide⟩

/-- `C80_registered`, `C80_inferred`, `C80_violated`. -/
example :
    registeredReader byName [([['T']], [['R']]), ([['U']], [['Q']])] [['T']] = some [['R']] ∧
    registeredReader byName [([['T']], [['R']])] ["Rule".toList] = none ∧ Plain (byName.name ["Rule".toList]) ∧
    byName.name ["core".toList, "Subject".toList] = byName.name ["context".toList, "Subject".toList] := by
  refine ⟨by decide, by decide, ⟨by decide, by decide⟩, by decide⟩

end Xacml
