import Verif.Spec.MapThreads
import Verif.Lemmas.Prog
import Verif.Lemmas.Dict
import Verif.Props.FunctionMap

/-!
# C74: function lookups and registrations in several threads
-/
namespace Xacml
open Spec

private theorem map_step (s : MapProcess) (i : Nat) : s.step i = match s.threads[i]? with
    | some (.act f k) => { map := f s.map, threads := s.threads.set i (k s.map) }
    | _ => s := rfl

private theorem map_step_other {s : MapProcess} {i j : Nat} (h : j ≠ i) :
    (s.step j).threads[i]? = s.threads[i]? := by
  rw [map_step]
  split
  · simp [h]
  · rfl

private theorem map_step_self {s : MapProcess} {i : Nat} {f k} (h : s.threads[i]? = some (.act f k)) :
    s.step i = { map := f s.map, threads := s.threads.set i (k s.map) } ∧
      (s.step i).threads[i]? = some (k s.map) := by
  rw [map_step, h]
  have hl : i < s.threads.length := by
    rcases Nat.lt_or_ge i s.threads.length with h' | h'
    · exact h'
    · rw [List.getElem?_eq_none h'] at h; cases h
  simp [hl]

private theorem map_step_done {s : MapProcess} {i : Nat} {x} (h : s.threads[i]? = some (.done x)) :
    s.step i = s := by
  rw [map_step, h]

private theorem map_step_missing {s : MapProcess} {i : Nat} (h : s.threads[i]? = none) :
    s.step i = s := by
  rw [map_step, h]

/-- The state of one identifier `ns`: `r` is the function registered for it, if any. -/
private structure Local (imp : Importer) (ns : String) (r : Option FnEntry) (m : FunctionMap) : Prop where
  reg : ∀ e, r = some e → dictGet m.store ns = some e
  std : ∀ e, r = none → dictGet m.store ns = some e → fresh imp ns = .ok e
  fact : ∀ f, dictGet m.factories ns = some f → ∃ e, f ns.toList = .ok (.entry e) ∧ fresh imp ns = .ok e

/-- What a lookup should give. -/
private def expected (imp : Importer) (ns : String) (r : Option FnEntry) : Except Exc FnEntry :=
  r.elim (fresh imp ns) .ok

section Lookups
variable {imp : Importer} {c : String → Option FnEntry} {P : String → Prop}

/-- All identifiers in `P` are in order. -/
private def Inv74 (imp : Importer) (c : String → Option FnEntry) (P : String → Prop) (m : FunctionMap) : Prop :=
  ∀ ns, P ns → Local imp ns (c ns) m

private theorem inv_store {m : FunctionMap} (h : Inv74 imp c P m) {n : String} {e : FnEntry}
    (he : P n → c n = none ∧ fresh imp n = .ok e) :
    Inv74 imp c P { m with store := dictSet m.store n e } := by
  intro ns hns
  obtain ⟨h1, h2, h3⟩ := h ns hns
  by_cases hn : ns = n
  · subst hn
    obtain ⟨hc, hf⟩ := he hns
    refine ⟨fun e' h' => absurd (hc.symm.trans h') (by simp), fun e' _ h' => ?_, h3⟩
    simp only [dictGet_set, if_true, Option.some.injEq] at h'
    rw [← h', hf]
  · refine ⟨fun e' h' => ?_, fun e' hr h' => ?_, h3⟩
    · simp only [dictGet_set, hn, if_false]; exact h1 e' h'
    · simp only [dictGet_set, hn, if_false] at h'; exact h2 e' hr h'

private theorem inv_fact {m : FunctionMap} (h : Inv74 imp c P m) {n : String} {f : Factory}
    (he : P n → ∃ e, f n.toList = .ok (.entry e) ∧ fresh imp n = .ok e) :
    Inv74 imp c P { m with factories := dictSet m.factories n f } := by
  intro ns hns
  obtain ⟨h1, h2, h3⟩ := h ns hns
  refine ⟨h1, h2, fun g hg => ?_⟩
  simp only [dictGet_set] at hg
  split at hg
  · rename_i hn
    subst hn
    cases hg
    exact he hns
  · exact h3 g hg

/-- Entries are not removed. -/
private def Grows (m m' : FunctionMap) : Prop :=
  ∀ n, (dictGet m.store n).isSome = true → (dictGet m'.store n).isSome = true

private theorem grows_refl (m : FunctionMap) : Grows m m := fun _ h => h

private theorem grows_set (m : FunctionMap) (n : String) (e : FnEntry) :
    Grows m { m with store := dictSet m.store n e } := by
  intro n' h
  simp only [dictGet_set]
  split
  · rfl
  · exact h

/-- There is an entry. -/
private def Present (n : String) (m : FunctionMap) : Prop := (dictGet m.store n).isSome = true

/-- What `loadFunction` has done when it ends. -/
private def LoadPost (imp : Importer) (c : String → Option FnEntry) (P : String → Prop) (n : String)
    (K : Prop) (x : Except Exc Unit) : Prop :=
  P n → (x = .ok () ∧ K) ∨ (∃ e, c n = none ∧ fresh imp n = .error e ∧ x = .error e)

/-- Loading succeeds or fails as on a new map, or the identifier has meanwhile got its function. -/
private theorem load_ensures (n : String) (K : Prop) :
    (loadFunctionT imp n).Ensures (Inv74 imp c P) Grows (Present n) (LoadPost imp c P n) K := by
  unfold loadFunctionT
  refine Prog.Ensures.read grows_refl fun m hm _ => ?_
  cases hs : dictGet m.store n with
  | some e => exact ⟨True, fun _ => by simp [Present, hs], fun hP => .inl ⟨rfl, trivial⟩⟩
  | none =>
    refine ⟨False, False.elim, ?_⟩
    have hcn : P n → c n = none := fun hP => by
      cases hc : c n with
      | none => rfl
      | some e => rw [(hm n hP).reg e hc] at hs; cases hs
    refine Prog.Ensures.read grows_refl fun m' hm' _ => ⟨False, False.elim, ?_⟩
    have good : ∀ e, (P n → fresh imp n = .ok e) →
        (setItemT n (.entry e)).Ensures (Inv74 imp c P) Grows (Present n) (LoadPost imp c P n) False := by
      intro e he m hm _
      refine ⟨inv_store hm fun hP => ⟨hcn hP, he hP⟩, grows_set m n e, True, fun _ => ?_, fun hP => .inl ⟨rfl, trivial⟩⟩
      simp [Present, dictGet_set]
    cases hf : dictGet m'.factories n with
    | some f =>
      simp only
      cases hfn : f n.toList with
      | error e =>
        intro hP
        obtain ⟨e', h, _⟩ := (hm' n hP).fact f hf
        rw [hfn] at h; cases h
      | ok out =>
        have he : ∀ e', out = .entry e' → P n → fresh imp n = .ok e' := fun e' ho hP => by
          obtain ⟨e'', h, h'⟩ := (hm' n hP).fact f hf
          rw [hfn, ho] at h
          injection h with h; injection h with h
          rw [h, h']
        have hne : P n → ∃ e', out = .entry e' := fun hP => by
          obtain ⟨e'', h, h'⟩ := (hm' n hP).fact f hf
          rw [hfn] at h
          injection h with h
          exact ⟨_, h⟩
        cases out with
        | entry e => exact good e (he e rfl)
        | none => intro hP; obtain ⟨_, h⟩ := hne hP; cases h
        | junk => intro hP; obtain ⟨_, h⟩ := hne hP; cases h
    | none =>
      have hfr : fresh imp n = (FunctionMap.new.get imp n).1 := rfl
      simp only
      unfold FunctionMap.get FunctionMap.loadFunction at hfr
      simp only [FunctionMap.new, dictGet] at hfr
      cases hp : functionClassPath n.toList with
      | none =>
        simp only [hp] at hfr
        exact fun hP => .inr ⟨_, hcn hP, hfr, rfl⟩
      | some path =>
        simp only [hp] at hfr ⊢
        cases hi : imp path with
        | error e =>
          simp only [hi] at hfr ⊢
          by_cases he : e = .importError ∨ e = .attributeError
          · rw [if_pos he] at hfr ⊢
            refine good _ fun _ => ?_
            rw [hfr]
            simp [FunctionMap.setItem, dictGet_set]
          · rw [if_neg he] at hfr ⊢
            exact fun hP => .inr ⟨_, hcn hP, hfr, rfl⟩
        | ok f =>
          simp only [hi] at hfr ⊢
          cases hfn : f n.toList with
          | error e =>
            simp only [hfn] at hfr ⊢
            exact fun hP => .inr ⟨_, hcn hP, hfr, rfl⟩
          | ok out =>
            simp only [hfn] at hfr ⊢
            cases out with
            | none => exact fun hP => .inr ⟨_, hcn hP, hfr, rfl⟩
            | junk => exact fun hP => .inr ⟨_, hcn hP, hfr, rfl⟩
            | entry e =>
              have hfe : fresh imp n = .ok e := by
                rw [hfr]; simp [FunctionMap.setItem, dictGet_set]
              refine Prog.Ensures.bind (good e fun _ => hfe) (fun K _ hK => ?_) fun K e' h => h
              intro m hm hKF
              refine ⟨inv_fact hm fun _ => ⟨e, hfn, hfe⟩, fun _ h => h, K, fun k => hKF k, fun hP => ?_⟩
              rcases hK hP with ⟨_, k⟩ | ⟨_, _, _, h⟩
              · exact .inl ⟨rfl, k⟩
              · cases h

private theorem get_ensures (n : String) (K : Prop) :
    (getT imp n).Ensures (Inv74 imp c P) Grows (Present n) (fun _ x => P n → x = expected imp n (c n)) K := by
  have hsome : ∀ m e, Inv74 imp c P m → dictGet m.store n = some e → P n →
      (.ok e : Except Exc FnEntry) = expected imp n (c n) := by
    intro m e hm hs hP
    obtain ⟨h1, h2, _⟩ := hm n hP
    unfold expected
    cases hc : c n with
    | some e' => rw [h1 e' hc] at hs; cases hs; rfl
    | none => exact (h2 e hc hs).symm
  unfold getT
  refine Prog.Ensures.read grows_refl fun m hm _ => ⟨False, False.elim, ?_⟩
  cases hs : dictGet m.store n with
  | some e => exact hsome m e hm hs
  | none =>
    refine Prog.Ensures.bind (load_ensures n False) (fun K _ hK => ?_) fun K e hK hP => ?_
    · refine Prog.Ensures.read grows_refl fun m' hm' hF => ⟨False, False.elim, ?_⟩
      cases hs' : dictGet m'.store n with
      | some e => exact hsome m' e hm' hs'
      | none =>
        intro hP
        rcases hK hP with ⟨_, k⟩ | ⟨_, _, _, h⟩
        · have := hF k
          rw [Present, hs'] at this; cases this
        · cases h
    · rcases hK hP with ⟨h, _⟩ | ⟨e', h1, h2, h3⟩
      · cases h
      · unfold expected
        injection h3 with h3
        subst h3
        rw [h1, Option.elim_none, h2]

private theorem register_cases (imp : Importer) (n : String) (a : CustomArg) :
    (∃ e, Offers imp n e a ∧ loadCustomT imp n a = Prog.write fun m => { m with store := dictSet m.store n e }) ∨
    ((∀ e, ¬ Offers imp n e a) ∧ ∃ x, loadCustomT imp n a = .done (.error x)) := by
  unfold loadCustomT
  by_cases hstd : n ∈ stdFunctionNames
  · refine .inr ⟨fun e ho => ?_, _, if_pos (by simpa using hstd)⟩
    cases ho with
    | factory h => exact h hstd
    | path h => exact h hstd
  · rw [if_neg (by simpa using hstd)]
    cases a with
    | factory f =>
      simp only
      cases hfn : f n.toList with
      | error e =>
        refine .inr ⟨fun e ho => ?_, _, rfl⟩
        cases ho with | factory _ h => rw [hfn] at h; cases h
      | ok out =>
        cases out with
        | entry e => exact .inl ⟨e, .factory hstd hfn, rfl⟩
        | none =>
          refine .inr ⟨fun e ho => ?_, _, rfl⟩
          cases ho with | factory _ h => rw [hfn] at h; cases h
        | junk =>
          refine .inr ⟨fun e ho => ?_, _, rfl⟩
          cases ho with | factory _ h => rw [hfn] at h; cases h
    | path p =>
      simp only
      cases hi : imp p.toList with
      | error e =>
        refine .inr ⟨fun e ho => ?_, _, rfl⟩
        cases ho with | path _ h => rw [hi] at h; cases h
      | ok f =>
        simp only
        cases hfn : f n.toList with
        | error e =>
          refine .inr ⟨fun e ho => ?_, _, rfl⟩
          cases ho with | path _ h h' => rw [hi] at h; cases h; rw [hfn] at h'; cases h'
        | ok out =>
          cases out with
          | entry e => exact .inl ⟨e, .path hstd hi hfn, rfl⟩
          | none =>
            refine .inr ⟨fun e ho => ?_, _, rfl⟩
            cases ho with | path _ h h' => rw [hi] at h; cases h; rw [hfn] at h'; cases h'
          | junk =>
            refine .inr ⟨fun e ho => ?_, _, rfl⟩
            cases ho with | path _ h h' => rw [hi] at h; cases h; rw [hfn] at h'; cases h'
    | notAString =>
      refine .inr ⟨fun e ho => ?_, _, rfl⟩
      cases ho

/-- The identifier a call is about. -/
private def MapCall.name : MapCall → String
  | .get n => n
  | .register n _ => n

/-- What the thread of a call may end with. -/
private def CallPost (imp : Importer) (c : String → Option FnEntry) (P : String → Prop) (call : MapCall)
    (x : Except Exc (Option FnEntry)) : Prop :=
  ∀ n, call = .get n → P n → x = (expected imp n (c n)).map some

private theorem call_ensures (call : MapCall) (h : ∀ n a, call = .register n a → ¬ P n) (K : Prop) :
    (call.prog imp).Ensures (Inv74 imp c P) Grows (Present call.name) (fun _ x => CallPost imp c P call x) K := by
  cases call with
  | get n =>
    refine Prog.Ensures.bind (get_ensures n K) (fun K e he => ?_) fun K e he => ?_
    · intro n' hn hP
      injection hn with hn
      subst hn
      rw [← he hP]; rfl
    · intro n' hn hP
      injection hn with hn
      subst hn
      rw [← he hP]; rfl
  | register n a =>
    have hP := h n a rfl
    show ((loadCustomT imp n a) >>= fun _ => _ : Prog FunctionMap (Option FnEntry)).Ensures _ _ _ _ _
    rcases register_cases imp n a with ⟨e, _, heq⟩ | ⟨_, x, heq⟩
    · rw [heq]
      intro m hm _
      refine ⟨inv_store hm fun h => absurd h hP, grows_set m n e, False, False.elim, fun n' hn => by cases hn⟩
    · rw [heq]
      exact fun n' hn => by cases hn

/-- Thread `i` makes the call `calls[i]` and keeps its part. -/
private def ProcInv (imp : Importer) (c : String → Option FnEntry) (P : String → Prop) (calls : List MapCall)
    (s : MapProcess) : Prop :=
  Inv74 imp c P s.map ∧ ∀ (i : Nat) (t : Prog FunctionMap (Option FnEntry)), s.threads[i]? = some t → ∃ call : MapCall, calls[i]? = some call ∧ ∃ K : Prop,
    (K → Present call.name s.map) ∧
    t.Ensures (Inv74 imp c P) Grows (Present call.name) (fun _ x => CallPost imp c P call x) K

private theorem procInv_step {calls : List MapCall} {s : MapProcess} (h : ProcInv imp c P calls s) (j : Nat) :
    ProcInv imp c P calls (s.step j) := by
  obtain ⟨h1, h2⟩ := h
  cases ht : s.threads[j]? with
  | none => rw [map_step_missing ht]; exact ⟨h1, h2⟩
  | some t =>
    cases t with
    | done x => rw [map_step_done ht]; exact ⟨h1, h2⟩
    | act f k =>
      obtain ⟨call, hc, K, hK, he⟩ := h2 j _ ht
      obtain ⟨e1, e2, K', e3, e4⟩ := he s.map h1 hK
      obtain ⟨hs1, hs2⟩ := map_step_self ht
      refine ⟨by rw [hs1]; exact e1, fun i t hi => ?_⟩
      by_cases hij : j = i
      · subst hij
        rw [hs2] at hi
        cases hi
        exact ⟨call, hc, K', by rw [hs1]; exact e3, e4⟩
      · rw [map_step_other hij] at hi
        obtain ⟨call', hc', K'', hK'', he'⟩ := h2 i t hi
        exact ⟨call', hc', K'', fun k' => by rw [hs1]; exact e2 _ (hK'' k'), he'⟩

private theorem procInv_steps {calls : List MapCall} (sched : List Nat) {s : MapProcess}
    (h : ProcInv imp c P calls s) : ProcInv imp c P calls (s.steps sched) := by
  induction sched generalizing s with
  | nil => exact h
  | cons j l ih => exact ih (procInv_step h j)

end Lookups

private theorem expected_get {imp : Importer} {m : FunctionMap} {c} (h : FmInv imp m c) (ns : String) :
    (m.get imp ns).1 = expected imp ns (c ns) := by
  rw [(fmInv_get h ns).2]
  unfold expected
  cases c ns <;> rfl

/-- C74: any number of threads look up and register functions on one map, interleaved in any way. A
lookup of an identifier that none of them registers a function for gives what it gives alone on the
map as it was before. -/
theorem C74_lookups (imp : Importer) (es : List FmEvent) (calls : List MapCall) (sched : List Nat)
    (i : Nat) (ns : String) (hi : calls[i]? = some (.get ns))
    (hreg : ∀ a, .register ns a ∉ calls) (x : Except Exc (Option FnEntry))
    (hx : ((MapProcess.begin imp (fmRun imp .new es) calls).steps sched).Finished i x) :
    x = ((fmRun imp .new es).get imp ns).1.map some := by
  obtain ⟨c, hinv, _⟩ := fmInv_run imp es
  have h0 : ProcInv imp c (fun n => n = ns) calls (MapProcess.begin imp (fmRun imp .new es) calls) := by
    refine ⟨fun n _ => ⟨fun e => hinv.custom n e, fun e hc hs => hinv.std n e hc hs, hinv.fact n⟩, fun j t ht => ?_⟩
    simp only [MapProcess.begin, List.getElem?_map, Option.map_eq_some_iff] at ht
    obtain ⟨call, hc, rfl⟩ := ht
    refine ⟨call, hc, False, False.elim, call_ensures call (fun n a hca hn => ?_) False⟩
    subst hn hca
    exact hreg a (List.mem_of_getElem? hc)
  obtain ⟨call, hc, K, _, he⟩ := (procInv_steps sched h0).2 i _ hx
  rw [hi] at hc
  cases hc
  rw [expected_get hinv]
  exact he ns rfl rfl

/-- C74, for the functions of the standard: registrations in other threads do not matter either. -/
theorem C74_standard (es : List FmEvent) (calls : List MapCall) (sched : List Nat)
    (i : Nat) (ns : String) (hi : calls[i]? = some (.get ns)) (hstd : ns ∈ stdFunctionNames)
    (x : Except Exc (Option FnEntry))
    (hx : ((MapProcess.begin (stdImporter stdClassMap) (fmRun (stdImporter stdClassMap) .new es) calls).steps sched).Finished i x) :
    x = .ok (some (stdResolution ns)) := by
  generalize himp : stdImporter stdClassMap = imp at hx
  obtain ⟨c, hinv, _⟩ := fmInv_run imp es
  have h0 : ProcInv imp c (fun n => n = ns) calls (MapProcess.begin imp (fmRun imp .new es) calls) := by
    refine ⟨fun n _ => ⟨fun e => hinv.custom n e, fun e hc hs => hinv.std n e hc hs, hinv.fact n⟩, fun j t ht => ?_⟩
    simp only [MapProcess.begin, List.getElem?_map, Option.map_eq_some_iff] at ht
    obtain ⟨call, hc, rfl⟩ := ht
    refine ⟨call, hc, False, False.elim, ?_⟩
    cases call with
    | get n => exact call_ensures _ (fun n a h => by cases h) _
    | register n a =>
      by_cases hn : n = ns
      · subst hn
        show ((loadCustomT imp n a) >>= fun _ => _ : Prog FunctionMap (Option FnEntry)).Ensures _ _ _ _ _
        rcases register_cases imp n a with ⟨e, ho, _⟩ | ⟨_, y, heq⟩
        · cases ho with
          | factory h => exact absurd hstd h
          | path h => exact absurd hstd h
        · rw [heq]
          exact fun n' hn => by cases hn
      · exact call_ensures _ (fun n' a' h hn' => by cases h; exact hn hn') _
  obtain ⟨call, hc, K, _, he⟩ := (procInv_steps sched h0).2 i _ hx
  rw [hi] at hc
  cases hc
  rw [he ns rfl rfl, ← expected_get hinv, ← himp, C35_standard es ns hstd]
  rfl

/-! ## Registrations -/

section Registrations
variable {imp : Importer} {ns : String}

/-- No factory is cached for an identifier outside the namespaces of the standard. -/
private def NoFactory (ns : String) (m : FunctionMap) : Prop :=
  functionClassPath ns.toList = none → dictGet m.factories ns = none

private def entryOf (ns : String) (m : FunctionMap) : Option FnEntry := dictGet m.store ns

private theorem frame_set {n : String} (hn : n ≠ ns) (out : FactoryOut) :
    (setItemT n out).Frame (NoFactory ns) (entryOf ns) := by
  cases out with
  | none => trivial
  | junk => trivial
  | entry e =>
    intro m hm
    refine ⟨hm, ?_, trivial⟩
    simp [entryOf, dictGet_set, Ne.symm hn]

private theorem frame_load {n : String} (hn : n ≠ ns ∨ functionClassPath ns.toList = none) :
    (loadFunctionT imp n).Frame (NoFactory ns) (entryOf ns) := by
  unfold loadFunctionT
  refine Prog.Frame.read fun m hm => ?_
  cases dictGet m.store n with
  | some e => trivial
  | none =>
    refine Prog.Frame.read fun m hm => ?_
    by_cases h : n = ns
    · subst h
      have ho : functionClassPath n.toList = none := hn.resolve_left (fun h => h rfl)
      rw [hm ho]
      simp only [ho]
      trivial
    · cases dictGet m.factories n with
      | some f =>
        simp only
        cases f n.toList with
        | error e => trivial
        | ok out => exact frame_set h out
      | none =>
        simp only
        cases functionClassPath n.toList with
        | none => trivial
        | some path =>
          simp only
          cases imp path with
          | error e =>
            simp only
            split
            · exact frame_set h _
            · trivial
          | ok f =>
            simp only
            cases f n.toList with
            | error e => trivial
            | ok out =>
              cases out with
              | none => trivial
              | junk => exact Prog.Frame.bind (frame_set h _) fun _ => fun m hm => ⟨fun ho => by
                  simp only [dictGet_set, Ne.symm h, if_false]; exact hm ho, rfl, trivial⟩
              | entry e => exact Prog.Frame.bind (frame_set h _) fun _ => fun m hm => ⟨fun ho => by
                  simp only [dictGet_set, Ne.symm h, if_false]; exact hm ho, rfl, trivial⟩

private theorem frame_call {call : MapCall} (h : call.name ≠ ns ∨
      (call = .get ns ∧ functionClassPath ns.toList = none)) :
    (call.prog imp).Frame (NoFactory ns) (entryOf ns) := by
  cases call with
  | get n =>
    have hn : n ≠ ns ∨ functionClassPath ns.toList = none := h.imp id And.right
    refine Prog.Frame.bind ?_ fun _ => trivial
    unfold getT
    refine Prog.Frame.read fun m hm => ?_
    cases dictGet m.store n with
    | some e => trivial
    | none =>
      refine Prog.Frame.bind (frame_load hn) fun _ => Prog.Frame.read fun m hm => ?_
      cases dictGet m.store n <;> trivial
  | register n a =>
    have hn : n ≠ ns := h.elim id fun h => by cases h.1
    show ((loadCustomT imp n a) >>= fun _ => _ : Prog FunctionMap (Option FnEntry)).Frame _ _
    refine Prog.Frame.bind ?_ fun _ => trivial
    rcases register_cases imp n a with ⟨e, _, heq⟩ | ⟨_, x, heq⟩
    · rw [heq]; exact frame_set hn (.entry e)
    · rw [heq]; trivial

/-- The thread does not touch the entry for `ns`, or is a lookup that has not started, or a registration
that has not started and that offers only functions in `Q`. -/
private def Quiet (imp : Importer) (ns : String) (Q : FnEntry → Prop) (t : Prog FunctionMap (Option FnEntry)) : Prop :=
  t.Frame (NoFactory ns) (entryOf ns) ∨ t = (MapCall.get ns).prog imp ∨
    ∃ a, t = (MapCall.register ns a).prog imp ∧ ∀ e, Offers imp ns e a → Q e

/-- The entry for `ns` is in `Q`. -/
private def Entry (ns : String) (Q : FnEntry → Prop) (m : FunctionMap) : Prop := ∃ e, entryOf ns m = some e ∧ Q e

/-- A registration that has not started: its only step stores a function it offers. -/
private theorem register_step {Q : FnEntry → Prop} {s : MapProcess} {j : Nat} {a : CustomArg} {f k}
    (hj : s.threads[j]? = some (.act f k)) (hp : .act f k = (MapCall.register ns a).prog imp)
    (hQ : ∀ e, Offers imp ns e a → Q e) :
    Entry ns Q (s.step j).map ∧ (s.step j).threads[j]? = some (.done (.ok none)) ∧
      (NoFactory ns s.map → NoFactory ns (s.step j).map) := by
  obtain ⟨hs1, hs2⟩ := map_step_self hj
  have hp' : (MapCall.register ns a).prog imp = Prog.bind (fun _ => .done (.ok none)) (loadCustomT imp ns a) := rfl
  rw [hp'] at hp
  rcases register_cases imp ns a with ⟨e, ho, heq⟩ | ⟨_, z, heq⟩
  · rw [heq] at hp
    injection hp with hf hk
    subst hf; subst hk
    refine ⟨⟨e, ?_, hQ e ho⟩, hs2, fun h => by rw [hs1]; exact h⟩
    rw [hs1]; simp [entryOf, dictGet_set]
  · rw [heq] at hp; cases hp

/-- A lookup that has not started, when there is an entry. -/
private theorem lookup_step {e : FnEntry} {s : MapProcess} (hv : entryOf ns s.map = some e) {j : Nat}
    (hj : s.threads[j]? = some ((MapCall.get ns).prog imp)) :
    (s.step j).threads[j]? = some (.done (.ok (some e))) ∧ (s.step j).map = s.map := by
  have hprog : (MapCall.get ns).prog imp = .act id fun m => Prog.bind (fun e => .done (.ok (some e)))
      (match dictGet m.store ns with
        | some e => pure e
        | none => do
          loadFunctionT imp ns
          let found ← Prog.read fun m => dictGet m.store ns
          match found with
          | some e => pure e
          | none => Prog.throw .keyError) := rfl
  rw [hprog] at hj
  obtain ⟨h1, h2⟩ := map_step_self hj
  have hv' : dictGet s.map.store ns = some e := hv
  simp only [hv'] at h1 h2
  exact ⟨h2, by rw [h1]; rfl⟩

private theorem quiet_step {Q : FnEntry → Prop} {s : MapProcess} (hG : NoFactory ns s.map) (hv : Entry ns Q s.map)
    (ht : ∀ (i : Nat) t, s.threads[i]? = some t → Quiet imp ns Q t) (j : Nat) :
    NoFactory ns (s.step j).map ∧ Entry ns Q (s.step j).map ∧
      ∀ (i : Nat) t, (s.step j).threads[i]? = some t → Quiet imp ns Q t := by
  cases htj : s.threads[j]? with
  | none => rw [map_step_missing htj]; exact ⟨hG, hv, ht⟩
  | some tj =>
    cases tj with
    | done y => rw [map_step_done htj]; exact ⟨hG, hv, ht⟩
    | act f k =>
      obtain ⟨hs1, hs2⟩ := map_step_self htj
      rcases ht j _ htj with hf | hp | ⟨a, hp, hQ⟩
      · obtain ⟨f1, f2, f3⟩ := hf s.map hG
        refine ⟨by rw [hs1]; exact f1, ?_, fun i t hi => ?_⟩
        · obtain ⟨e, he, hq⟩ := hv
          exact ⟨e, by rw [hs1]; exact f2.trans he, hq⟩
        · by_cases hij : j = i
          · subst hij; rw [hs2] at hi; cases hi; exact .inl f3
          · rw [map_step_other hij] at hi; exact ht i t hi
      · rw [hp] at htj
        obtain ⟨e, he, hq⟩ := hv
        obtain ⟨g1, g2⟩ := lookup_step he htj
        refine ⟨by rw [g2]; exact hG, ⟨e, by rw [g2]; exact he, hq⟩, fun i t hi => ?_⟩
        by_cases hij : j = i
        · subst hij; rw [g1] at hi; cases hi; exact .inl trivial
        · rw [map_step_other hij] at hi; exact ht i t hi
      · obtain ⟨g1, g2, g3⟩ := register_step htj hp hQ
        refine ⟨g3 hG, g1, fun i t hi => ?_⟩
        by_cases hij : j = i
        · subst hij; rw [g2] at hi; cases hi; exact .inl trivial
        · rw [map_step_other hij] at hi; exact ht i t hi

/-- Once there is a function in `Q`, lookups find one. -/
private theorem settled {Q : FnEntry → Prop} (sched : List Nat) {s : MapProcess} (hG : NoFactory ns s.map)
    (hv : Entry ns Q s.map) (ht : ∀ (i : Nat) t, s.threads[i]? = some t → Quiet imp ns Q t)
    {i : Nat} {t : Prog FunctionMap (Option FnEntry)}
    (hi : s.threads[i]? = some t) (hti : t = (MapCall.get ns).prog imp ∨ ∃ e, Q e ∧ t = .done (.ok (some e)))
    {x} (hx : (s.steps sched).Finished i x) : ∃ e, Q e ∧ x = .ok (some e) := by
  induction sched generalizing s t with
  | nil =>
    have h1 : some t = some (.done x) := hi.symm.trans hx
    injection h1 with h1
    rcases hti with h | ⟨e, hq, h⟩
    · rw [h] at h1; cases h1
    · rw [h] at h1; cases h1; exact ⟨e, hq, rfl⟩
  | cons j l ih =>
    have hstep := quiet_step hG hv ht j
    by_cases hij : j = i
    · subst hij
      rcases hti with h | ⟨e, hq, h⟩
      · rw [h] at hi
        obtain ⟨e, he, hq⟩ := hv
        exact ih hstep.1 hstep.2.1 hstep.2.2 (lookup_step he hi).1 (.inr ⟨e, hq, rfl⟩) hx
      · rw [h] at hi
        have : s.step j = s := map_step_done hi
        exact ih hstep.1 hstep.2.1 hstep.2.2 (by rw [this]; exact hi) (.inr ⟨e, hq, rfl⟩) hx
    · exact ih hstep.1 hstep.2.1 hstep.2.2 (by rw [map_step_other hij]; exact hi) hti hx

/-- The thread `k` does not touch the entry for `ns`, or is a lookup or one of the registrations and has
not started. -/
private def Ahead (imp : Importer) (ns : String) (calls : List MapCall) (k : Nat) (t : Prog FunctionMap (Option FnEntry)) :
    Prop :=
  t.Frame (NoFactory ns) (entryOf ns) ∨ t = (MapCall.get ns).prog imp ∨
    ∃ a, calls[k]? = some (.register ns a) ∧ t = (MapCall.register ns a).prog imp

/-- Before the first registration of `ns` has returned: lookups of `ns` that would write have not
started and do not start in `l`; when a registration has succeeded there is an entry in `Q`. -/
private theorem until_registered {Q : FnEntry → Prop} {calls : List MapCall}
    (hQ : ∀ (k : Nat) a e, calls[k]? = some (.register ns a) → Offers imp ns e a → Q e)
    {j : Nat} {a : CustomArg} (hj : calls[j]? = some (.register ns a)) :
    ∀ (l : List Nat) (s : MapProcess), NoFactory ns s.map →
      (∀ (k : Nat) t, s.threads[k]? = some t → t.Frame (NoFactory ns) (entryOf ns) ∨
        (k ∉ l ∧ t = (MapCall.get ns).prog imp) ∨
        ∃ a, calls[k]? = some (.register ns a) ∧ t = (MapCall.register ns a).prog imp) →
      (s.threads[j]? = some ((MapCall.register ns a).prog imp) ∨
        ∃ y, s.threads[j]? = some (.done y) ∧ (y = .ok none → Entry ns Q s.map)) →
      (s.steps l).Finished j (.ok none) →
      NoFactory ns (s.steps l).map ∧ (∀ (k : Nat) t, (s.steps l).threads[k]? = some t → Ahead imp ns calls k t) ∧
      Entry ns Q (s.steps l).map := by
  intro l
  induction l with
  | nil =>
    intro s hG ht hjs hfin
    have hfin' : s.threads[j]? = some (.done (.ok none)) := hfin
    refine ⟨hG, fun k t hk => ?_, ?_⟩
    rotate_left
    · rcases hjs with h | ⟨y, h1, h2⟩
      · exfalso
        have h' : some ((MapCall.register ns a).prog imp) = some (.done (.ok none)) := h.symm.trans hfin'
        injection h' with h'
        have hp : (MapCall.register ns a).prog imp = Prog.bind (fun _ => .done (.ok none)) (loadCustomT imp ns a) := rfl
        rw [hp] at h'
        rcases register_cases imp ns a with ⟨e, _, heq⟩ | ⟨_, z, heq⟩ <;> (rw [heq] at h'; cases h')
      · have h' := h1.symm.trans hfin'
        cases h'
        exact h2 rfl
    rcases ht k t hk with h | ⟨_, h⟩ | ⟨a, h1, h2⟩
    · exact .inl h
    · exact .inr (.inl h)
    · exact .inr (.inr ⟨a, h1, h2⟩)
  | cons k l ih =>
    intro s hG ht hjs hfin
    have drop : ∀ (k' : Nat) t, s.threads[k']? = some t → t.Frame (NoFactory ns) (entryOf ns) ∨
        (k' ∉ l ∧ t = (MapCall.get ns).prog imp) ∨
        ∃ a, calls[k']? = some (.register ns a) ∧ t = (MapCall.register ns a).prog imp := by
      intro k' t h1
      rcases ht k' t h1 with h | ⟨h, h'⟩ | h
      · exact .inl h
      · exact .inr (.inl ⟨fun hm => h (by simp [hm]), h'⟩)
      · exact .inr (.inr h)
    cases htk : s.threads[k]? with
    | none =>
      have hs : s.steps (k :: l) = s.steps l := congrArg (·.steps l) (map_step_missing htk)
      rw [hs] at hfin ⊢
      exact ih _ hG drop hjs hfin
    | some tk =>
      cases tk with
      | done y =>
        have hs : s.steps (k :: l) = s.steps l := congrArg (·.steps l) (map_step_done htk)
        rw [hs] at hfin ⊢
        exact ih _ hG drop hjs hfin
      | act f kk =>
        obtain ⟨hs1, hs2⟩ := map_step_self htk
        by_cases hkj : k = j
        · subst hkj
          rcases hjs with h | ⟨y, h1, _⟩
          · have hp : .act f kk = (MapCall.register ns a).prog imp := Option.some.inj (htk.symm.trans h)
            obtain ⟨g1, g2, g3⟩ := register_step htk hp (fun e ho => hQ k a e hj ho)
            refine ih (s.step k) (g3 hG) (fun k' t h1 => ?_) (.inr ⟨_, g2, fun _ => g1⟩) hfin
            by_cases hkk : k = k'
            · subst hkk; rw [g2] at h1; cases h1; exact .inl trivial
            · rw [map_step_other hkk] at h1; exact drop k' t h1
          · rw [htk] at h1; cases h1
        · rcases ht k _ htk with hf | ⟨hk, _⟩ | ⟨a', hc, hp⟩
          · obtain ⟨f1, f2, f3⟩ := hf s.map hG
            refine ih (s.step k) (by rw [hs1]; exact f1) (fun k' t h1 => ?_) ?_ hfin
            · by_cases hkk : k = k'
              · subst hkk; rw [hs2] at h1; cases h1; exact .inl f3
              · rw [map_step_other hkk] at h1; exact drop k' t h1
            · rw [map_step_other hkj]
              rcases hjs with h | ⟨y, h1, h2⟩
              · exact .inl h
              · refine .inr ⟨y, h1, fun hy => ?_⟩
                obtain ⟨e, he, hq⟩ := h2 hy
                exact ⟨e, by rw [hs1]; exact f2.trans he, hq⟩
          · exact absurd (by simp) hk
          · obtain ⟨g1, g2, g3⟩ := register_step htk hp (fun e ho => hQ k a' e hc ho)
            refine ih (s.step k) (g3 hG) (fun k' t h1 => ?_) ?_ hfin
            · by_cases hkk : k = k'
              · subst hkk; rw [g2] at h1; cases h1; exact .inl trivial
              · rw [map_step_other hkk] at h1; exact drop k' t h1
            · rw [map_step_other hkj]
              rcases hjs with h | ⟨y, h1, _⟩
              · exact .inl h
              · exact .inr ⟨y, h1, fun _ => g1⟩

end Registrations

private theorem outside_path {ns : String} (h : Outside ns) : functionClassPath ns.toList = none := by
  have h1 : v1ns.isPrefixOf ns.toList = false := by
    rw [Bool.eq_false_iff]; exact fun h' => h.1 (List.isPrefixOf_iff_prefix.1 h')
  have h2 : v2ns.isPrefixOf ns.toList = false := by
    rw [Bool.eq_false_iff]; exact fun h' => h.2 (List.isPrefixOf_iff_prefix.1 h')
  unfold functionClassPath
  simp [List.find?, h1, h2]

/-- The state when a registration of `ns` has returned. -/
private theorem registered (imp : Importer) (es : List FmEvent) (calls : List MapCall) (before : List Nat)
    (j : Nat) (ns : String) (a : CustomArg) (hj : calls[j]? = some (.register ns a))
    (hok : ((MapProcess.begin imp (fmRun imp .new es) calls).steps before).Finished j (.ok none))
    (hq : Outside ns ∨ ∀ k ∈ before, calls[k]? ≠ some (.get ns))
    (Q : FnEntry → Prop) (hQ : ∀ (k : Nat) a e, calls[k]? = some (.register ns a) → Offers imp ns e a → Q e) :
    let s := (MapProcess.begin imp (fmRun imp .new es) calls).steps before
    NoFactory ns s.map ∧ (∀ (k : Nat) t, s.threads[k]? = some t → Ahead imp ns calls k t) ∧ Entry ns Q s.map := by
  obtain ⟨c, hinv, _⟩ := fmInv_run imp es
  have hG0 : NoFactory ns (fmRun imp .new es) := by
    intro ho
    cases hf : dictGet (fmRun imp .new es).factories ns with
    | none => rfl
    | some f =>
      obtain ⟨e, _, he⟩ := hinv.fact ns f hf
      unfold fresh FunctionMap.get FunctionMap.loadFunction at he
      simp only [FunctionMap.new, dictGet, ho] at he
      cases he
  refine until_registered hQ hj before (MapProcess.begin imp (fmRun imp .new es) calls) hG0 ?_
    (.inl (by simp [MapProcess.begin, hj])) hok
  intro k t hk
  simp only [MapProcess.begin, List.getElem?_map, Option.map_eq_some_iff] at hk
  obtain ⟨call, hc, rfl⟩ := hk
  by_cases hn : call.name = ns
  · cases call with
    | register n a' => simp only [MapCall.name] at hn; subst hn; exact .inr (.inr ⟨a', hc, rfl⟩)
    | get n =>
      simp only [MapCall.name] at hn
      subst hn
      rcases hq with h | h
      · exact .inl (frame_call (.inr ⟨rfl, outside_path h⟩))
      · exact .inr (.inl ⟨fun hm => h k hm hc, rfl⟩)
  · exact .inl (frame_call (.inl hn))

/-- A thread that has not been scheduled. -/
private theorem untouched {i : Nat} : ∀ (l : List Nat) (s : MapProcess), i ∉ l → (s.steps l).threads[i]? = s.threads[i]? := by
  intro l
  induction l with
  | nil => intros; rfl
  | cons k l ih =>
    intro s hl
    simp only [List.mem_cons, not_or] at hl
    exact (ih (s.step k) hl.2).trans (map_step_other (Ne.symm hl.1))

/-- C74, registrations: when a registration of a function for `ns` has returned, every lookup of `ns`
that starts afterwards gives this function, or that of another registration of `ns`. Proved if `ns` is
outside the namespaces of the standard, or no lookup of `ns` was made before the registration returned.
Missing: lookups of an identifier inside these namespaces that are under way while it is registered, see
`C74_violated`. -/
theorem C74_registered_partial (imp : Importer) (es : List FmEvent) (calls : List MapCall) (before after : List Nat)
    (j : Nat) (ns : String) (a : CustomArg) (hj : calls[j]? = some (.register ns a))
    (hok : ((MapProcess.begin imp (fmRun imp .new es) calls).steps before).Finished j (.ok none))
    (hq : Outside ns ∨ ∀ k ∈ before, calls[k]? ≠ some (.get ns))
    (i : Nat) (hi : calls[i]? = some (.get ns)) (hstart : i ∉ before)
    (x : Except Exc (Option FnEntry))
    (hx : ((MapProcess.begin imp (fmRun imp .new es) calls).steps (before ++ after)).Finished i x) :
    ∃ (k : Nat) (a' : CustomArg) (e : FnEntry), calls[k]? = some (.register ns a') ∧ Offers imp ns e a' ∧ x = .ok (some e) := by
  obtain ⟨p1, p2, p3⟩ := registered imp es calls before j ns a hj hok hq
    (fun e => ∃ (k : Nat) (a' : CustomArg), calls[k]? = some (MapCall.register ns a') ∧ Offers imp ns e a')
    (fun k a e hk ho => ⟨k, a, hk, ho⟩)
  rw [MapProcess.steps, List.foldl_append] at hx
  obtain ⟨e, ⟨k, a', hk, ho⟩, hxe⟩ := settled after p1 p3 (fun k t hkt => by
    rcases p2 k t hkt with h | h | ⟨a'', h1, h2⟩
    · exact .inl h
    · exact .inr (.inl h)
    · exact .inr (.inr ⟨a'', h2, fun e ho => ⟨k, a'', h1, ho⟩⟩)) (i := i) (t := (MapCall.get ns).prog imp) (by
    rw [untouched before _ hstart]
    simp [MapProcess.begin, hi]) (.inl rfl) hx
  exact ⟨k, a', e, hk, ho, hxe⟩

/-- C74, registrations: when all registrations of `ns` have ended, at least one of them successfully, all
lookups that start afterwards give the same function, one of those registered. -/
theorem C74_agree_partial (imp : Importer) (es : List FmEvent) (calls : List MapCall) (before : List Nat)
    (j : Nat) (ns : String) (a : CustomArg) (hj : calls[j]? = some (.register ns a))
    (hok : ((MapProcess.begin imp (fmRun imp .new es) calls).steps before).Finished j (.ok none))
    (hall : ∀ (k : Nat) a', calls[k]? = some (.register ns a') →
      ∃ y, ((MapProcess.begin imp (fmRun imp .new es) calls).steps before).Finished k y)
    (hq : Outside ns ∨ ∀ k ∈ before, calls[k]? ≠ some (.get ns)) :
    ∃ (k : Nat) (a' : CustomArg) (e : FnEntry), calls[k]? = some (.register ns a') ∧ Offers imp ns e a' ∧
      ∀ (after : List Nat) (i : Nat) (x : Except Exc (Option FnEntry)), calls[i]? = some (.get ns) → i ∉ before →
        ((MapProcess.begin imp (fmRun imp .new es) calls).steps (before ++ after)).Finished i x → x = .ok (some e) := by
  obtain ⟨p1, p2, e, p3, k, a', hk, ho⟩ := registered imp es calls before j ns a hj hok hq
    (fun e => ∃ (k : Nat) (a' : CustomArg), calls[k]? = some (MapCall.register ns a') ∧ Offers imp ns e a')
    (fun k a e hk ho => ⟨k, a, hk, ho⟩)
  refine ⟨k, a', e, hk, ho, fun after i x hi hstart hx => ?_⟩
  rw [MapProcess.steps, List.foldl_append] at hx
  have p2' : ∀ (k : Nat) t, ((MapProcess.begin imp (fmRun imp .new es) calls).steps before).threads[k]? = some t →
      Quiet imp ns (fun e' => e' = e) t := by
    intro k t hkt
    rcases p2 k t hkt with h | h | ⟨a'', h, _⟩
    · exact .inl h
    · exact .inr (.inl h)
    · obtain ⟨y, hy⟩ := hall k a'' h
      have hy' := hkt.symm.trans hy
      cases hy'
      exact .inl trivial
  obtain ⟨e', rfl, hxe⟩ := settled (Q := fun e' => e' = e) after p1 ⟨e, p3, rfl⟩ p2' (i := i) (t := (MapCall.get ns).prog imp) (by
    rw [untouched before _ hstart]
    simp [MapProcess.begin, hi]) (.inl rfl) hx
  exact hxe

/-! ## The race -/

/-- An identifier that is not in the standard but looks like it. -/
private def raced : String := "urn:oasis:names:tc:xacml:1.0:function:string-reverse"

private def customFactory : Factory := fun _ => .ok (.entry (.cls (.custom 7)))

private theorem race {imp : Importer} {ns : String} {p : List Char} {f : Factory} {e : FnEntry}
    (hstd : stdFunctionNames.contains ns = false) (hpath : functionClassPath ns.toList = some p)
    (himp : imp p = .error .importError) (hf : f ns.toList = .ok (.entry e)) :
    ((MapProcess.begin imp .new [.get ns, .register ns (.factory f), .get ns]).steps [0, 0, 0, 1]).Finished 1 (.ok none) ∧
    ((MapProcess.begin imp .new [.get ns, .register ns (.factory f), .get ns]).steps [0, 0, 0, 1, 0, 2]).Finished 2
      (.ok (some .notImplemented)) := by
  have hstd' : ns ∉ stdFunctionNames := by simpa using hstd
  constructor <;>
  simp [MapProcess.Finished, MapProcess.steps, MapProcess.step, MapProcess.begin, MapCall.prog, getT, loadFunctionT,
    loadCustomT, setItemT, Prog.read, Prog.write, bind, Prog.bind, pure, FunctionMap.new, dictGet, dictSet, hstd', hpath, himp, hf]

/-- C74 does not hold in general: thread 0 looks `raced` up and finds no implementation; before it
stores that, thread 1 registers one, successfully; then thread 0 overwrites it, and the lookup that
thread 2 makes afterwards finds no implementation. -/
theorem C74_violated : ∃ (calls : List MapCall) (before after : List Nat),
    calls = [.get raced, .register raced (.factory customFactory), .get raced] ∧
    2 ∉ before ∧
    ((MapProcess.begin (stdImporter stdClassMap) .new calls).steps before).Finished 1 (.ok none) ∧
    ((MapProcess.begin (stdImporter stdClassMap) .new calls).steps (before ++ after)).Finished 2
      (.ok (some .notImplemented)) := by
  have h := race (imp := stdImporter stdClassMap) (ns := raced) (f := customFactory) (by decide +kernel) (p := _)
    (show functionClassPath raced.toList =
      some (chars% "ndg.xacml.core.functions.v1.reverse.FunctionClassFactory") by decide +kernel)
    (by unfold stdImporter; rfl) rfl
  exact ⟨_, [0, 0, 0, 1], [0, 2], rfl, by decide, h.1, h.2⟩

/-! ## Finishing, and the sequential calls -/

/-- Done after at most `n` steps, whatever the others do. -/
private def Within {σ α : Type} : Nat → Prog σ α → Prop
  | _, .done _ => True
  | 0, .act _ _ => False
  | n + 1, .act _ k => ∀ s, Within n (k s)

private theorem within_mono {σ α : Type} {n m : Nat} {t : Prog σ α} (h : Within n t) (hnm : n ≤ m) : Within m t := by
  induction t generalizing n m with
  | done x => cases m <;> trivial
  | act f k ih =>
    cases n with
    | zero => exact h.elim
    | succ n =>
      cases m with
      | zero => omega
      | succ m => exact fun s => ih s (h s) (by omega)

private theorem within_bind {σ α β : Type} {n m : Nat} {t : Prog σ α} {f : α → Prog σ β} (h : Within n t)
    (hf : ∀ a, Within m (f a)) : Within (n + m) (Prog.bind f t) := by
  induction t generalizing n with
  | done x =>
    cases x with
    | error e => cases n + m <;> trivial
    | ok a => exact within_mono (hf a) (by omega)
  | act g k ih =>
    cases n with
    | zero => exact h.elim
    | succ n =>
      rw [Nat.succ_add]
      exact fun s => ih s (h s)

private theorem within_set (ns : String) (out : FactoryOut) : Within 1 (setItemT ns out) := by
  cases out with
  | entry e => exact fun _ => trivial
  | none => trivial
  | junk => trivial

private theorem within_call (imp : Importer) (call : MapCall) : Within 6 (call.prog imp) := by
  cases call with
  | get ns =>
    refine within_bind (n := 6) (m := 0) ?_ fun _ => trivial
    intro m
    show Within 5 (match dictGet m.store ns with | some e => _ | none => _)
    cases dictGet m.store ns with
    | some e => trivial
    | none =>
      refine within_bind (n := 4) (m := 1) ?_ fun _ => ?_
      · intro m
        show Within 3 (match dictGet m.store ns with | some e => _ | none => _)
        cases dictGet m.store ns with
        | some e => trivial
        | none =>
          intro m
          show Within 2 (match dictGet m.factories ns with | some e => _ | none => _)
          cases dictGet m.factories ns with
          | some f =>
            simp only
            cases f ns.toList with
            | error e => trivial
            | ok out => exact within_mono (within_set ns out) (by omega)
          | none =>
            simp only
            cases functionClassPath ns.toList with
            | none => trivial
            | some path =>
              simp only
              cases imp path with
              | error e =>
                simp only
                split
                · exact within_mono (within_set ns _) (by omega)
                · trivial
              | ok f =>
                simp only
                cases f ns.toList with
                | error e => trivial
                | ok out =>
                  cases out with
                  | none => trivial
                  | junk => exact within_bind (n := 1) (m := 1) (within_set ns _) fun _ => fun _ => trivial
                  | entry e => exact within_bind (n := 1) (m := 1) (within_set ns _) fun _ => fun _ => trivial
      · intro m
        show Within 0 (match dictGet m.store ns with | some e => _ | none => _)
        cases dictGet m.store ns <;> trivial
  | register ns a =>
    show Within 6 (Prog.bind (fun _ => .done (.ok none)) (loadCustomT imp ns a))
    rcases register_cases imp ns a with ⟨e, _, heq⟩ | ⟨_, x, heq⟩
    · rw [heq]; exact fun _ => trivial
    · rw [heq]; trivial

/-- C74, progress: no call waits for another. A thread that is given six steps has finished, wherever
in the schedule they are and whatever the other threads do in between. -/
theorem C74_finishes (imp : Importer) (m : FunctionMap) (calls : List MapCall) (sched : List Nat) (i : Nat)
    (hi : i < calls.length) (hfair : 6 ≤ sched.count i) :
    ∃ x, ((MapProcess.begin imp m calls).steps sched).Finished i x := by
  have key : ∀ (sched : List Nat) (s : MapProcess) (n : Nat) (t : Prog FunctionMap (Option FnEntry)),
      s.threads[i]? = some t → Within n t → n ≤ sched.count i → ∃ x, (s.steps sched).Finished i x := by
    intro sched
    induction sched with
    | nil =>
      intro s n t ht hw hn
      cases t with
      | done x => exact ⟨x, ht⟩
      | act f k =>
        cases n with
        | zero => exact hw.elim
        | succ n => simp at hn
    | cons j l ih =>
      intro s n t ht hw hn
      by_cases hij : j = i
      · subst hij
        cases t with
        | done x =>
          have hs : s.steps (j :: l) = s.steps l := congrArg (·.steps l) (map_step_done ht)
          rw [hs]
          exact ih s 0 _ ht (by trivial) (by omega)
        | act f k =>
          cases n with
          | zero => exact hw.elim
          | succ n =>
            rw [List.count_cons_self] at hn
            exact ih (s.step j) n _ (map_step_self ht).2 (hw s.map) (by omega)
      · rw [List.count_cons_of_ne hij] at hn
        exact ih (s.step j) n t ((map_step_other hij).trans ht) hw hn
  refine key sched _ 6 ((calls[i]).prog imp) ?_ (within_call imp _) hfair
  simp [MapProcess.begin, hi]

private theorem alone_bind {σ α β : Type} (f : α → Prog σ β) (t : Prog σ α) (s : σ) :
    (Prog.bind f t).runAlone s =
      match t.runAlone s with
      | (.ok a, s') => (f a).runAlone s'
      | (.error e, s') => (.error e, s') := by
  induction t generalizing s with
  | done x => cases x <;> rfl
  | act g k ih => exact ih s (g s)

private theorem alone_set (ns : String) (out : FactoryOut) (m : FunctionMap) :
    (setItemT ns out).runAlone m = m.setItem ns out := by
  cases out <;> rfl

private theorem alone_load (imp : Importer) (ns : String) (m : FunctionMap) :
    (loadFunctionT imp ns).runAlone m = m.loadFunction imp ns := by
  unfold loadFunctionT FunctionMap.loadFunction
  show (match dictGet m.store ns with | some e => _ | none => _ : Prog FunctionMap Unit).runAlone m = _
  cases dictGet m.store ns with
  | some e => rfl
  | none =>
    show (match dictGet m.factories ns with | some e => _ | none => _ : Prog FunctionMap Unit).runAlone m = _
    cases dictGet m.factories ns with
    | some f =>
      simp only
      cases f ns.toList with
      | error e => rfl
      | ok out => exact alone_set ns out m
    | none =>
      simp only
      cases functionClassPath ns.toList with
      | none => rfl
      | some path =>
        simp only
        cases imp path with
        | error e =>
          simp only
          by_cases h : e = .importError ∨ e = .attributeError
          · rw [if_pos h, if_pos h]; exact alone_set ns _ m
          · rw [if_neg h, if_neg h]; rfl
        | ok f =>
          simp only
          cases f ns.toList with
          | error e => rfl
          | ok out => cases out <;> rfl

/-- C74: without interruption, the calls do what C35 and C36 say they do. -/
theorem C74_uninterrupted (imp : Importer) (m : FunctionMap) (call : MapCall) :
    ∃ n, (MapProcess.begin imp m [call]).steps (List.replicate n 0) =
      ⟨(call.sequential imp m).2, [.done (call.sequential imp m).1]⟩ := by
  have key : ∀ (t : Prog FunctionMap (Option FnEntry)) (m : FunctionMap),
      ∃ n, (MapProcess.mk m [t]).steps (List.replicate n 0) = ⟨(t.runAlone m).2, [.done (t.runAlone m).1]⟩ := by
    intro t
    induction t with
    | done x => exact fun s => ⟨0, rfl⟩
    | act f k ih =>
      intro s
      obtain ⟨n, hn⟩ := ih s (f s)
      exact ⟨n + 1, hn⟩
  have hrun : (call.prog imp).runAlone m = call.sequential imp m := by
    cases call with
    | get ns =>
      show (Prog.bind (fun e => .done (.ok (some e))) (getT imp ns)).runAlone m = _
      rw [alone_bind]
      have hg : (getT imp ns).runAlone m = m.get imp ns := by
        unfold getT FunctionMap.get
        show (match dictGet m.store ns with | some e => _ | none => _ : Prog FunctionMap FnEntry).runAlone m = _
        cases dictGet m.store ns with
        | some e => rfl
        | none =>
          show (Prog.bind _ (loadFunctionT imp ns)).runAlone m = _
          rw [alone_bind, alone_load]
          rcases m.loadFunction imp ns with ⟨x, m'⟩
          cases x with
          | error e => rfl
          | ok u =>
            show (match dictGet m'.store ns with | some e => _ | none => _ : Prog FunctionMap FnEntry).runAlone m' = _
            simp only
            cases dictGet m'.store ns <;> rfl
      rw [hg]
      simp only [MapCall.sequential]
      rcases m.get imp ns with ⟨x, m'⟩
      cases x <;> rfl
    | register ns a =>
      show (Prog.bind (fun _ => .done (.ok none)) (loadCustomT imp ns a)).runAlone m = _
      rw [alone_bind]
      have hg : (loadCustomT imp ns a).runAlone m = m.loadCustom imp ns a := by
        unfold loadCustomT FunctionMap.loadCustom
        split
        · rfl
        · have hinst : ∀ f : Factory,
              (match f ns.toList with
              | .error e => Prog.throw e
              | .ok .none => Prog.throw (unsupportedError ns)
              | .ok out => setItemT ns out : Prog FunctionMap Unit).runAlone m =
              (match f ns.toList with
              | .error e => (.error e, m)
              | .ok .none => (.error (unsupportedError ns), m)
              | .ok out => m.setItem ns out) := by
            intro f
            cases f ns.toList with
            | error e => rfl
            | ok out => cases out <;> rfl
          cases a with
          | factory f => exact hinst f
          | path p =>
            simp only
            cases imp p.toList with
            | error e => rfl
            | ok f => exact hinst f
          | notAString => rfl
      rw [hg]
      simp only [MapCall.sequential]
      rcases m.loadCustom imp ns a with ⟨x, m'⟩
      cases x <;> rfl
  obtain ⟨n, hn⟩ := key (call.prog imp) m
  rw [hrun] at hn
  exact ⟨n, hn⟩

/-! ## Non-vacuity -/

/-- Two lookups of the same standard function and a registration, interleaved step by step. -/
example : ∃ x, ((MapProcess.begin (stdImporter stdClassMap) .new
      [.get "urn:oasis:names:tc:xacml:1.0:function:string-equal", .register "urn:example:f" (.factory customFactory),
        .get "urn:oasis:names:tc:xacml:1.0:function:string-equal"]).steps
      [0, 2, 0, 2, 1, 0, 2, 0, 2, 0, 2, 0, 2]).Finished 2 x ∧
    x = .ok (some (stdResolution "urn:oasis:names:tc:xacml:1.0:function:string-equal")) := by
  obtain ⟨x, hx⟩ := C74_finishes (stdImporter stdClassMap) .new
    [.get "urn:oasis:names:tc:xacml:1.0:function:string-equal", .register "urn:example:f" (.factory customFactory),
        .get "urn:oasis:names:tc:xacml:1.0:function:string-equal"] [0, 2, 0, 2, 1, 0, 2, 0, 2, 0, 2, 0, 2] 2
    (by decide) (by decide)
  exact ⟨x, hx, C74_standard [] _ _ 2 _ rfl (by decide +kernel) x hx⟩

/-- A registration made while another thread looks the same identifier up; the lookup made
afterwards gives the function. -/
example : ∃ x, ((MapProcess.begin (stdImporter stdClassMap) .new
      [.get "urn:example:f", .register "urn:example:f" (.factory customFactory), .get "urn:example:f"]).steps
      ([0, 0, 1] ++ [0, 2, 2, 2, 2, 2, 2])).Finished 2 x ∧ x = .ok (some (.cls (.custom 7))) := by
  obtain ⟨x, hx⟩ := C74_finishes (stdImporter stdClassMap) .new
    [.get "urn:example:f", .register "urn:example:f" (.factory customFactory), .get "urn:example:f"]
    ([0, 0, 1] ++ [0, 2, 2, 2, 2, 2, 2]) 2 (by decide) (by decide)
  have hstd : "urn:example:f" ∉ stdFunctionNames := by decide +kernel
  obtain ⟨k, a', e, hk, ho, he⟩ := C74_registered_partial (stdImporter stdClassMap) [] _ [0, 0, 1] [0, 2, 2, 2, 2, 2, 2] 1
    "urn:example:f" (.factory customFactory) rfl
    (by simp [MapProcess.Finished, MapProcess.steps, MapProcess.step, MapProcess.begin, MapCall.prog, getT, loadFunctionT,
          loadCustomT, setItemT, Prog.read, Prog.write, bind, Prog.bind, pure, FunctionMap.new, dictGet, dictSet, hstd,
          customFactory, fmRun])
    (.inl ⟨by decide, by decide⟩) 2 rfl (by decide) x hx
  refine ⟨x, hx, ?_⟩
  rw [he]
  have ha : a' = .factory customFactory := by
    match k with
    | 0 => cases hk
    | 1 => cases hk; rfl
    | 2 => cases hk
    | k + 3 => cases hk
  subst ha
  cases ho with
  | factory _ h => simp only [customFactory, Except.ok.injEq, FactoryOut.entry.injEq] at h; rw [h]

/-- Two registrations of one identifier: all lookups made afterwards agree. -/
example : ∃ e : FnEntry, ∀ (after : List Nat) (i : Nat) (x : Except Exc (Option FnEntry)),
    ([.register "urn:example:f" (.factory customFactory), .register "urn:example:f" (.factory customFactory),
      .get "urn:example:f", .get "urn:example:f"] : List MapCall)[i]? = some (.get "urn:example:f") → i ∉ [1, 0] →
    ((MapProcess.begin (stdImporter stdClassMap) (fmRun (stdImporter stdClassMap) .new [])
      [.register "urn:example:f" (.factory customFactory), .register "urn:example:f" (.factory customFactory),
        .get "urn:example:f", .get "urn:example:f"]).steps ([1, 0] ++ after)).Finished i x → x = .ok (some e) := by
  have hstd : "urn:example:f" ∉ stdFunctionNames := by decide +kernel
  have hdone : ∀ k < 2, ((MapProcess.begin (stdImporter stdClassMap) (fmRun (stdImporter stdClassMap) .new [])
      [.register "urn:example:f" (.factory customFactory), .register "urn:example:f" (.factory customFactory),
        .get "urn:example:f", .get "urn:example:f"]).steps [1, 0]).Finished k (.ok none) := by
    intro k hk
    match k with
    | 0 => simp [MapProcess.Finished, MapProcess.steps, MapProcess.step, MapProcess.begin, MapCall.prog, loadCustomT,
          setItemT, Prog.write, bind, Prog.bind, pure, FunctionMap.new, hstd, customFactory, fmRun]
    | 1 => simp [MapProcess.Finished, MapProcess.steps, MapProcess.step, MapProcess.begin, MapCall.prog, loadCustomT,
          setItemT, Prog.write, bind, Prog.bind, pure, FunctionMap.new, hstd, customFactory, fmRun]
  obtain ⟨_, _, e, _, _, h⟩ := C74_agree_partial (stdImporter stdClassMap) [] _ [1, 0] 0 "urn:example:f"
    (.factory customFactory) rfl (hdone 0 (by decide))
    (by
      intro k a' hk
      match k with
      | 0 => exact ⟨_, hdone 0 (by decide)⟩
      | 1 => exact ⟨_, hdone 1 (by decide)⟩
      | 2 => cases hk
      | 3 => cases hk
      | k + 4 => cases hk)
    (.inl ⟨by decide, by decide⟩)
  exact ⟨e, h⟩

end Xacml
