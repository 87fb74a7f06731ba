import Verif.Lemmas.PrintThreads
import Verif.Spec.PrintThreads
import Verif.Props.Sending

/-!
# C98: printing documents in several threads
-/
namespace Xacml
open Spec

private structure Inv (us : List Chars) (base : List (Chars × Chars)) (s : Printers) : Prop where
  agree : AllAgree us base s.shared
  harmless : ∀ t ∈ s.threads, ∃ n, n ≤ s.shared.heap.length ∧ Harmless us base n t

private def Will (us : List Chars) (base : List (Chars × Chars)) (s : Printers) (i : Nat) (x : Except Exc Chars) : Prop :=
  ∃ t n, s.threads[i]? = some t ∧ n ≤ s.shared.heap.length ∧ Yields us base x n t

private theorem Inv.step {us base} {s : Printers} (h : Inv us base s) (i : Nat) : Inv us base (s.step i) := by
  rw [Printers.step]
  split
  · rename_i f k hi
    obtain ⟨n, hn, ht⟩ := h.harmless _ (List.mem_of_getElem? hi)
    obtain ⟨h1, h2, h3⟩ := ht s.shared h.agree hn
    refine ⟨h1, fun t ht => ?_⟩
    rcases List.mem_or_eq_of_mem_set ht with ht | rfl
    · obtain ⟨m, hm, h4⟩ := h.harmless t ht
      exact ⟨m, Nat.le_trans hm h2, h4⟩
    · exact ⟨_, h2, h3⟩
  · exact h

private theorem Will.step {us base} {s : Printers} (h : Inv us base s) {i : Nat} {x} (hw : Will us base s i x) (j : Nat) :
    Will us base (s.step j) i x := by
  obtain ⟨t, n, ht, hn, hy⟩ := hw
  rw [Printers.step]
  split
  · rename_i f k hj
    by_cases hij : j = i
    · subst hij
      rw [ht] at hj
      cases hj
      obtain ⟨h1, h2, h3⟩ := hy s.shared h.agree hn
      refine ⟨k s.shared, _, ?_, h2, h3⟩
      have hl : j < s.threads.length := by
        rcases Nat.lt_or_ge j s.threads.length with h | h
        · exact h
        · rw [List.getElem?_eq_none h] at ht; cases ht
      show (s.threads.set j _)[j]? = _
      rw [List.getElem?_set_self hl]
    · obtain ⟨m, hm, h4⟩ := h.harmless _ (List.mem_of_getElem? hj)
      refine ⟨t, n, ?_, Nat.le_trans hn (h4 s.shared h.agree hm).2.1, hy⟩
      show (s.threads.set j _)[i]? = _
      rw [List.getElem?_set_ne hij]
      exact ht
  · exact ⟨t, n, ht, hn, hy⟩

private theorem Inv.steps {us base} {s : Printers} (h : Inv us base s) (sched : List Nat) : Inv us base (s.steps sched) := by
  induction sched generalizing s with
  | nil => exact h
  | cons j sched ih => exact ih (h.step j)

private theorem Will.steps {us base} {s : Printers} (h : Inv us base s) {i : Nat} {x} (hw : Will us base s i x) (sched : List Nat) :
    Will us base (s.steps sched) i x := by
  induction sched generalizing s with
  | nil => exact hw
  | cons j sched ih => exact ih (h.step j) (hw.step h j)

private theorem Will.done {us base} {s : Printers} {i : Nat} {x y} (hw : Will us base s i x) (hd : Printed s i y) : y = x := by
  obtain ⟨t, n, ht, _, hy⟩ := hw
  rw [Printed, ht] at hd
  cases hd
  exact hy

private theorem job_harmless {us base} (hreg : ∀ u ∈ us, (nsGet base u).isSome = true) (hn : [] ∉ us) (j : PrintJob)
    (hj : ∀ uri p count e', j = .write uri p count e' → uri ∈ us → nsGet base uri = some p) (n : Nat) :
    Harmless us base n j.thread := by
  cases j with
  | print e => exact harmless_print hreg e n
  | write uri p count e =>
    exact nsStable_elements (hj uri p count e rfl) (fun _ => prettyPrintT e) (fun m => harmless_print hreg e m) count n
  | read => exact Harmless.bind (harmless_reader hn n) fun _ _ => trivial

private theorem job_yields {us base} (hreg : ∀ u ∈ us, (nsGet base u).isSome = true) (j : PrintJob)
    (hj : ∀ uri p count e', j = .write uri p count e' → uri ∈ us → nsGet base uri = some p) {e : PElem} (he : document j = some e)
    (hs : namespaces e ⊆ us) :
    ∃ out, (∀ n, Yields us base (.ok out) n j.thread) ∧ prettyPrint base e [] fourSpaces = (.ok out, base) := by
  obtain ⟨out, h1, h2⟩ := yields_print hreg e hs
  refine ⟨out, fun n => ?_, h2⟩
  cases j with
  | print e' => cases he; exact h1 n
  | write uri p count e' => cases he; exact nsStable_elements (hj uri p count e rfl) (fun _ => prettyPrintT e) h1 count n
  | read => cases he

private theorem inv_begin {us base} (hreg : ∀ u ∈ us, (nsGet base u).isSome = true) (hn : [] ∉ us) (jobs : List PrintJob)
    (hj : ∀ uri p count e', PrintJob.write uri p count e' ∈ jobs → uri ∈ us → nsGet base uri = some p) :
    Inv us base (Printers.begin base jobs) := by
  refine ⟨⟨Nat.zero_lt_one, fun m hm => ?_⟩, fun t ht => ?_⟩
  · rw [List.mem_singleton.1 hm]; exact fun _ _ => rfl
  · obtain ⟨j, hj', rfl⟩ := List.mem_map.1 ht
    exact ⟨0, Nat.zero_le _, job_harmless hreg hn j (fun uri p c e' h => hj uri p c e' (h ▸ hj')) 0⟩

private theorem registered {m : List (Chars × Chars)} {e : PElem} (h : HasPrefixes m e) :
    (∀ u ∈ namespaces e, (nsGet m u).isSome = true) ∧ [] ∉ namespaces e := by
  refine ⟨fun u hu => ?_, fun hu => (h _ hu).1 rfl⟩
  obtain ⟨p, hp⟩ := (h u hu).2
  rw [nsGet, hp]
  rfl

/-- C98, the part that holds: if the namespaces of a document have prefixes from the start (and whoever writes elements in
them uses these), it is printed as by a single thread, whatever other threads print, write and read at the same time. What
is missing: namespaces that are not registered, see `C98_violated_undeclared`. -/
theorem C98_registered_partial (base : List (Chars × Chars)) (jobs : List PrintJob) (i : Nat) (job : PrintJob) (e : PElem)
    (hi : jobs[i]? = some job) (he : document job = some e) (hreg : HasPrefixes base e) (hp : SamePrefixes base e jobs)
    (sched : List Nat) (x : Except Exc Chars) (hx : Printed ((Printers.begin base jobs).steps sched) i x) :
    ∃ out, x = .ok out ∧ prettyPrint base e [] fourSpaces = (.ok out, base) := by
  obtain ⟨hr, hn⟩ := registered hreg
  have hinv := inv_begin hr hn jobs hp
  obtain ⟨out, h1, h2⟩ := job_yields hr job (fun uri p c e' h => hp uri p c e' (h ▸ List.mem_of_getElem? hi)) he
    (fun _ h => h)
  refine ⟨out, ?_, h2⟩
  refine Will.done (Will.steps hinv ⟨job.thread, 0, ?_, Nat.zero_le _, h1 0⟩ sched) hx
  simp [Printers.begin, hi]

/-- C98, the part that holds: so the text is a document that says the same. -/
theorem C98_reads_partial (base : List (Chars × Chars)) (jobs : List PrintJob) (i : Nat) (job : PrintJob) (e : PElem)
    (hi : jobs[i]? = some job) (he : document job = some e) (hg : GoodFor e base) (hpr : Printable e)
    (hreg : HasPrefixes base e) (hp : SamePrefixes base e jobs)
    (sched : List Nat) (x : Except Exc Chars) (hx : Printed ((Printers.begin base jobs).steps sched) i x) :
    ∃ out e', x = .ok out ∧ IsXml out e' ∧ SameContent e' e := by
  obtain ⟨out, rfl, h2⟩ := C98_registered_partial base jobs i job e hi he hreg hp sched x hx
  obtain ⟨_, doc, e', rfl, h3, h4, _⟩ := C76_reads_partial base e hg hpr [] fourSpaces (fun _ h => nomatch h)
    (fun c hc => by
      left
      simpa [fourSpaces] using hc) out base h2
  exact ⟨_, e', rfl, h3, h4⟩

/-- C98: a registered prefix stays, whatever threads do, unless one of them writes with another prefix. -/
theorem C98_registry (base : List (Chars × Chars)) (jobs : List PrintJob) (uri p : Chars) (hu : uri ≠ [])
    (hreg : base.lookup uri = some p) (hp : ∀ q count e, PrintJob.write uri q count e ∈ jobs → q = p) (sched : List Nat) :
    ((Printers.begin base jobs).steps sched).shared.now.lookup uri = some p := by
  have hr : ∀ u ∈ [uri], (nsGet base u).isSome = true := by
    intro u h
    rw [List.mem_singleton.1 h, nsGet, hreg]
    rfl
  have h := (Inv.steps (inv_begin hr (by simpa using hu) jobs fun u q c e' h h' => by
    rw [List.mem_singleton.1 h'] at h ⊢
    rw [hp q c e' h, nsGet, hreg]) sched).agree
  have := h.dict h.1 uri (List.mem_singleton_self _)
  rw [nsGet, nsGet, hreg] at this
  exact this

/-! ## Threads that only write -/

/-- A thread that is going to store an entry in the registry before anything else. -/
private def Early (uri p : Chars) (P : PrintThread Chars → Prop) (t : PrintThread Chars) : Prop :=
  ∃ rest, P rest ∧ (t = (loadNsMap >>= fun r => Prog.write (NsShared.assign r uri p) >>= fun _ => rest) ∨
    t = (Prog.write (NsShared.assign 0 uri p) >>= fun _ => rest))

/-- What holds of the rest of thread `l`. -/
private def Rest (us : List Chars) (base : List (Chars × Chars)) (i : Nat) (x : Except Exc Chars) (l : Nat) (t : PrintThread Chars) : Prop :=
  ∀ n, Harmless us base n t ∧ (l = i → Yields us base x n t)

private theorem Early.rest {us base} {uri p : Chars} {i x l} {t : PrintThread Chars}
    (hu : uri ∈ us → nsGet base uri = some p) (h : Early uri p (Rest us base i x l) t) : Rest us base i x l t := by
  obtain ⟨rest, h1, rfl | rfl⟩ := h
  · exact fun n => ⟨nsStable_assign n uri p hu _ fun m => (h1 m).1, fun hl => nsStable_assign n uri p hu _ fun m => (h1 m).2 hl⟩
  · exact fun n => ⟨fun s hs _ => ⟨hs.assign hu, by simp [NsShared.assign], (h1 _).1⟩,
      fun hl s hs _ => ⟨hs.assign hu, by simp [NsShared.assign], (h1 _).2 hl⟩⟩

private theorem Early.step {uri p : Chars} {P : PrintThread Chars → Prop} {base} {f k} (h : Early uri p P (.act f k)) :
    (f (NsShared.fresh base) = NsShared.fresh base ∧ Early uri p P (k (NsShared.fresh base))) ∨
      (f (NsShared.fresh base) = NsShared.fresh (dictSet base uri p) ∧ P (k (NsShared.fresh base))) := by
  obtain ⟨rest, h1, h | h⟩ := h
  · injection h with h2 h3
    subst h2 h3
    exact .inl ⟨rfl, rest, h1, .inr rfl⟩
  · injection h with h2 h3
    subst h2 h3
    exact .inr ⟨rfl, h1⟩

private structure Before (uri p : Chars) (base : List (Chars × Chars)) (i : Nat) (x : Except Exc Chars) (s : Printers) : Prop where
  shared : s.shared = NsShared.fresh base
  early : ∀ l t, s.threads[l]? = some t → Early uri p (Rest [uri] (dictSet base uri p) i x l) t
  there : i < s.threads.length

private theorem set_get {α} {l : List α} {j m : Nat} {a b : α} (h : (l.set j a)[m]? = some b) :
    (m = j ∧ b = a) ∨ l[m]? = some b := by
  by_cases hm : j = m
  · subst hm
    rw [List.getElem?_set] at h
    simp only [if_true] at h
    split at h
    · cases h; exact .inl ⟨rfl, rfl⟩
    · cases h
  · rw [List.getElem?_set_ne hm] at h
    exact .inr h

private theorem Before.step {uri p : Chars} {base} {i : Nat} {x} {s : Printers} (h : Before uri p base i x s) (j : Nat) :
    Before uri p base i x (s.step j) ∨
      (Inv [uri] (dictSet base uri p) (s.step j) ∧ Will [uri] (dictSet base uri p) (s.step j) i x) := by
  have hget : uri ∈ [uri] → nsGet (dictSet base uri p) uri = some p := fun _ => by rw [nsGet_dictSet, if_pos rfl]
  rw [Printers.step]
  split
  · rename_i f k hj
    rcases Early.step (base := base) (h.early j _ hj) with ⟨h1, h2⟩ | ⟨h1, h2⟩
    · refine .inl ⟨by show f s.shared = _; rw [h.shared, h1], fun l t ht => ?_, by simpa using h.there⟩
      rcases set_get ht with ⟨rfl, rfl⟩ | ht
      · rw [h.shared]; exact h2
      · exact h.early l t ht
    · have hf : f s.shared = NsShared.fresh (dictSet base uri p) := by rw [h.shared, h1]
      have hr : ∀ l t, (s.threads.set j (k s.shared))[l]? = some t → Rest [uri] (dictSet base uri p) i x l t := by
        intro l t ht
        rcases set_get ht with ⟨rfl, rfl⟩ | ht
        · rw [h.shared]; exact h2
        · exact (h.early l t ht).rest hget
      refine .inr ⟨⟨?_, fun t ht => ?_⟩, ?_⟩
      · show AllAgree _ _ (f s.shared)
        rw [hf]
        refine ⟨Nat.zero_lt_one, fun m hm => ?_⟩
        rw [List.mem_singleton.1 hm]
        exact fun _ _ => rfl
      · obtain ⟨l, hl, ht⟩ := List.getElem_of_mem ht
        exact ⟨0, Nat.zero_le _, (hr l t (by rw [List.getElem?_eq_getElem hl, ht]) 0).1⟩
      · have hl : i < (s.threads.set j (k s.shared)).length := by simpa using h.there
        exact ⟨_, 0, List.getElem?_eq_getElem hl, Nat.zero_le _, (hr i _ (List.getElem?_eq_getElem hl) 0).2 rfl⟩
  · exact .inl h

/-- C98: threads that only write documents, all with the same prefix, do not disturb each other in this namespace: a
document that is in it is printed as by a single thread, whatever else the others print. -/
theorem C98_written (base : List (Chars × Chars)) (uri p : Chars) (jobs : List PrintJob)
    (hjobs : ∀ j ∈ jobs, ∃ count e, j = .write uri p (count + 1) e) (i count : Nat) (e : PElem)
    (hi : jobs[i]? = some (.write uri p count e)) (he : ∀ u ∈ namespaces e, u = uri)
    (sched : List Nat) (x : Except Exc Chars) (hx : Printed ((Printers.begin base jobs).steps sched) i x) :
    ∃ out, x = .ok out ∧ prettyPrint (dictSet base uri p) e [] fourSpaces = (.ok out, dictSet base uri p) := by
  have hget : nsGet (dictSet base uri p) uri = some p := by rw [nsGet_dictSet, if_pos rfl]
  have hreg : ∀ u ∈ [uri], (nsGet (dictSet base uri p) u).isSome = true := by
    intro u hu
    rw [List.mem_singleton.1 hu, hget]
    rfl
  obtain ⟨out, h1, h2⟩ := yields_print hreg e (fun u hu => by rw [he u hu]; exact List.mem_singleton_self _)
  refine ⟨out, ?_, h2⟩
  have hb : Before uri p base i (.ok out) (Printers.begin base jobs) := by
    refine ⟨rfl, fun l t ht => ?_, ?_⟩
    · simp only [Printers.begin, List.getElem?_map] at ht
      cases hj : jobs[l]? with
      | none => rw [hj] at ht; cases ht
      | some j =>
        rw [hj] at ht
        cases ht
        obtain ⟨c, e', rfl⟩ := hjobs j (List.mem_of_getElem? hj)
        refine ⟨makeElementsT uri p c >>= fun _ => prettyPrintT e', fun n => ⟨?_, fun hl => ?_⟩, .inl rfl⟩
        · exact nsStable_elements (fun _ => hget) _ (fun m => harmless_print hreg e' m) c n
        · subst hl
          rw [hi] at hj
          cases hj
          exact nsStable_elements (fun _ => hget) _ h1 c n
    · rcases Nat.lt_or_ge i jobs.length with h | h
      · simpa [Printers.begin] using h
      · rw [List.getElem?_eq_none h] at hi; cases hi
  have key : ∀ (sched : List Nat) (s : Printers), Before uri p base i (.ok out) s → Before uri p base i (.ok out) (s.steps sched) ∨
      Will [uri] (dictSet base uri p) (s.steps sched) i (.ok out) := by
    intro sched
    induction sched with
    | nil => exact fun s h => .inl h
    | cons j sched ih =>
      intro s h
      rcases h.step j with h | ⟨h, hw⟩
      · exact ih _ h
      · exact .inr (Will.steps h hw sched)
  rcases key sched _ hb with h | h
  · obtain ⟨rest, _, h' | h'⟩ := h.early i _ hx <;> cases h'
  · exact h.done hx

/-! ## Progress, and one thread alone -/

private theorem psteps_succ (s : Printers) (σ : Nat → Nat) (n : Nat) :
    s.steps ((List.range (n + 1)).map σ) = (s.steps ((List.range n).map σ)).step (σ n) := by
  simp [Printers.steps, List.range_succ]

private theorem pstep_self {s : Printers} {i : Nat} {f k} (h : s.threads[i]? = some (.act f k)) :
    (s.step i).threads[i]? = some (k s.shared) := by
  have hl : i < s.threads.length := by
    rcases Nat.lt_or_ge i s.threads.length with h' | h'
    · exact h'
    · rw [List.getElem?_eq_none h'] at h; cases h
  rw [Printers.step, h]
  exact List.getElem?_set_self hl

private theorem pstep_other {s : Printers} {i j : Nat} (h : j ≠ i) : (s.step j).threads[i]? = s.threads[i]? := by
  rw [Printers.step]
  split
  · exact List.getElem?_set_ne h
  · rfl

private theorem pfinishes {i : Nat} {σ : Nat → Nat} (hσ : FairFor i σ) (s : Printers) (t : PrintThread Chars) :
    ∀ n, (s.steps ((List.range n).map σ)).threads[i]? = some t →
    ∃ m x, n ≤ m ∧ Printed (s.steps ((List.range m).map σ)) i x := by
  induction t with
  | done x => exact fun n h => ⟨n, x, Nat.le_refl n, h⟩
  | act f k ih =>
    intro n h
    obtain ⟨m, hm, he⟩ := hσ n
    have key : ∀ d n, m = n + d → (s.steps ((List.range n).map σ)).threads[i]? = some (.act f k) →
        ∃ n' s', n ≤ n' ∧ (s.steps ((List.range n').map σ)).threads[i]? = some (k s') := by
      intro d
      induction d with
      | zero =>
        intro n hd h
        have : m = n := hd
        subst this
        refine ⟨m + 1, (s.steps ((List.range m).map σ)).shared, Nat.le_succ m, ?_⟩
        rw [psteps_succ, he]
        exact pstep_self h
      | succ d ihd =>
        intro n hd h
        by_cases hn : σ n = i
        · refine ⟨n + 1, (s.steps ((List.range n).map σ)).shared, Nat.le_succ n, ?_⟩
          rw [psteps_succ, hn]
          exact pstep_self h
        · obtain ⟨n', s', h1, h2⟩ := ihd (n + 1) (by omega) (by rw [psteps_succ, pstep_other hn]; exact h)
          exact ⟨n', s', by omega, h2⟩
    obtain ⟨n', s', h1, h2⟩ := key (m - n) n (by omega) h
    obtain ⟨m', x, h3, h4⟩ := ih s' n' h2
    exact ⟨m', x, by omega, h4⟩

/-- C98: no thread waits for another one: as long as it gets turns it finishes. -/
theorem C98_finishes (base : List (Chars × Chars)) (jobs : List PrintJob) (i : Nat) (hi : i < jobs.length)
    (σ : Nat → Nat) (hσ : FairFor i σ) :
    ∃ n x, Printed ((Printers.begin base jobs).steps ((List.range n).map σ)) i x := by
  obtain ⟨m, x, _, h⟩ := pfinishes hσ (Printers.begin base jobs) jobs[i].thread 0
    (by simp [Printers.steps, Printers.begin, hi])
  exact ⟨m, x, h⟩

/-- C98: the thread is `prettyPrint` cut into steps: without interruption it returns, or raises, the same and leaves the same
registry. -/
theorem C98_uninterrupted (base : List (Chars × Chars)) (e : PElem) :
    ∃ n s, (Printers.begin base [.print e]).steps (List.replicate n 0) =
        ⟨s, [.done (match (prettyPrint base e [] fourSpaces).1 with
          | .ok out => .ok out
          | .error .keyError => .error .keyError)]⟩ ∧
      s.now = (prettyPrint base e [] fourSpaces).2 := by
  have key : ∀ (t : PrintThread Chars) (s : NsShared), ∃ n, (Printers.mk s [t]).steps (List.replicate n 0) =
      ⟨(t.runAlone s).2, [.done (t.runAlone s).1]⟩ := by
    intro t
    induction t with
    | done x => exact fun s => ⟨0, rfl⟩
    | act f k ih =>
      intro s
      obtain ⟨n, hn⟩ := ih s (f s)
      exact ⟨n + 1, hn⟩
  obtain ⟨n, hn⟩ := key (prettyPrintT e) (NsShared.fresh base)
  obtain ⟨h1, h2⟩ := print_alone e (NsShared.fresh base) Nat.zero_lt_one
  refine ⟨n, _, hn.trans ?_, h2⟩
  congr 2
  have hnow : (NsShared.fresh base).now = base := rfl
  rw [hnow] at h1
  congr 1
  cases hp : (prettyPrint base e [] fourSpaces).1 with
  | ok out => rw [hp] at h1; exact h1
  | error x => cases x; rw [hp] at h1; exact h1

/-! ## Clients in several threads -/

/-- C98: clients that send requests at the same time, whose texts are read as the requests they sent. -/
theorem C98_requests (base : List (Chars × Chars)) (hbase : WriterRegistry base) (jobs : List PrintJob)
    (hjobs : ∀ j ∈ jobs, ∃ count e, j =
      .write "urn:oasis:names:tc:xacml:2.0:context:schema:os".toList "xacml-context".toList (count + 1) e)
    (lib lib' : Etree) (hl : lib.lxml = false) (hg : lib.getchildren = true) (hg' : lib'.getchildren = true)
    (cm : List (String × AVClass)) (r : RequestX) (hr : GoodRequest .tree cm r) (hp : PlainRequest r) (hc : NoContent r)
    (n : XNode) (hw : writeRequest lib r = .ok n) (t : PElem) (ht : asTree n = some t) (i count : Nat)
    (hi : jobs[i]? = some
      (.write "urn:oasis:names:tc:xacml:2.0:context:schema:os".toList "xacml-context".toList count t))
    (sched : List Nat) (x : Except Exc Chars) (hx : Printed ((Printers.begin base jobs).steps sched) i x) :
    ∃ out t', x = .ok out ∧ IsXml out t' ∧ readRequest lib' cm (parsed t') = .ok (trimmedRequest r) := by
  have hco := contextOnly_request hl hw hc t ht
  obtain ⟨out, rfl, h1⟩ := C98_written base _ _ jobs hjobs i count t hi hco sched x hx
  have hreg : WriterRegistry (dictSet base "urn:oasis:names:tc:xacml:2.0:context:schema:os".toList "xacml-context".toList) :=
    C88_registry ⟨base, []⟩ hbase (fun _ h => nomatch h) [.makeElement _ _] fun e he => .inr (List.mem_singleton.1 he)
  obtain ⟨n0, n', hw0, ⟨t0, out0, t', ht0, ho, hx', rfl⟩, hrd⟩ := C88_request lib lib' hl hg hg' cm r hr hp hc _ hreg
  rw [hw] at hw0
  cases hw0
  rw [ht] at ht0
  cases ht0
  rw [show ([' ', ' ', ' ', ' '] : Chars) = fourSpaces from rfl, h1] at ho
  cases ho
  exact ⟨out, t', rfl, hx', hrd⟩

/-! ## What goes wrong -/

namespace Samples

/-- The registry has nothing but the namespace of `xml`. -/
def bare : List (Chars × Chars) := [(xmlUri, xmlName)]

def contextUri : Chars := "urn:oasis:names:tc:xacml:2.0:context:schema:os".toList

/-- A response. -/
def answerTree : PElem :=
  .mk "{urn:oasis:names:tc:xacml:2.0:context:schema:os}Response".toList [] none none
    [.mk "{urn:oasis:names:tc:xacml:2.0:context:schema:os}Result".toList [] none none []]

/-- One thread reads, another one writes a response. -/
def readAndWrite : List PrintJob := [.read, .write contextUri "xacml-context".toList 2 answerTree]

/-- One element in a namespace. -/
def single (uri : String) : PElem := .mk (clark uri.toList "x".toList) [] none none []

/-- An element in another. -/
def nested (uri : String) : PElem := .mk (clark uri.toList "x".toList) [] none none [single uri]

/-- `n` turns for thread `i`. -/
def turns (i n : Nat) : List Nat := List.replicate n i

def isOutput (s : Printers) (i : Nat) (out : Chars) : Bool :=
  match s.threads[i]? with
  | some (.done (.ok o)) => o == out
  | _ => false

def isKeyError (s : Printers) (i : Nat) : Bool :=
  match s.threads[i]? with
  | some (.done (.error e)) => e == .keyError
  | _ => false

end Samples
open Samples

private theorem isOutput_iff {s : Printers} {i : Nat} {out : Chars} (h : isOutput s i out = true) : Printed s i (.ok out) := by
  rw [isOutput] at h
  split at h
  · rename_i o ho; rw [Printed, ho, eq_of_beq h]
  · cases h

private theorem isKeyError_iff {s : Printers} {i : Nat} (h : isKeyError s i = true) : Printed s i (.error .keyError) := by
  rw [isKeyError] at h
  split at h
  · rename_i o ho; rw [Printed, ho, eq_of_beq h]
  · cases h

private theorem bare_good : GoodMap bare := by
  refine ⟨by decide +kernel, by decide +kernel, ?_, by simp [bare]⟩
  intro x hx
  rw [List.mem_singleton.1 hx]
  exact ⟨⟨by decide +kernel, by decide +kernel⟩, by decide +kernel⟩

private theorem broken {p q uri loc loc' : Chars} (hp : NCName p) (hq : NCName q) (h1 : NCName loc) (h2 : NCName loc') (hu : AttValue uri)
    (hn : Raw.resolve [(xmlName, xmlUri)] (.elem ⟨some p, loc⟩ [(⟨some xmlnsName, p⟩, uri)] "\n    ".toList
      [.elem ⟨some q, loc'⟩ [] [] [] "\n".toList] []) = none) (e : PElem) :
    ¬ IsXml (Raw.write (.elem ⟨some p, loc⟩ [(⟨some xmlnsName, p⟩, uri)] "\n    ".toList
      [.elem ⟨some q, loc'⟩ [] [] [] "\n".toList] [])) e := by
  have hb : ∀ w, Blank w → w ≠ [] → CharData w := fun w h h' => by
    simpa using charData_mid charData_nil h h' charData_nil
  refine not_isXml ?_ hn e
  simp only [Raw.Lexical, LexicalAll]
  refine ⟨⟨h1, fun _ h => by cases h; exact hp⟩, ?_, by simp, hb _ (by unfold Blank; decide) (by decide), ⟨⟨⟨h2, fun _ h => by cases h; exact hq⟩, by simp,
    by simp, charData_nil, trivial, hb _ (by unfold Blank; decide) (by decide)⟩, trivial⟩, charData_nil⟩
  intro a ha
  rw [List.mem_singleton.1 ha]
  exact ⟨⟨hp, fun _ h => by cases h; exact ⟨by decide, by decide⟩⟩, hu⟩

set_option maxRecDepth 20000 in
/-- C98, violated: a reader that is deleted while a response is written takes back the registration of its namespace; the
rest of the response has a prefix that is not declared, so that it is not an XML document. -/
theorem C98_violated_reading : ∃ (sched : List Nat) (out : Chars), GoodMap bare ∧
    Printed ((Printers.begin bare readAndWrite).steps sched) 1 (.ok out) ∧ ∀ e, ¬ IsXml out e := by
  refine ⟨turns 0 4 ++ turns 1 10 ++ turns 0 1 ++ turns 1 7, _, bare_good, isOutput_iff (out :=
    Raw.write (.elem ⟨some "xacml-context".toList, "Response".toList⟩ [(⟨some xmlnsName, "xacml-context".toList⟩, contextUri)] "\n    ".toList
      [.elem ⟨some "ns0".toList, "Result".toList⟩ [] [] [] "\n".toList] [])) (by decide +kernel), broken ?_ ?_ ?_ ?_ ?_ (by rfl)⟩
  · constructor <;> decide +kernel
  · constructor <;> decide +kernel
  · constructor <;> decide +kernel
  · constructor <;> decide +kernel
  · unfold AttValue; decide +kernel

set_option maxRecDepth 20000 in
/-- C98, violated: so does a thread that prints another document. -/
theorem C98_violated_undeclared : ∃ (sched : List Nat) (out : Chars), GoodMap bare ∧
    Printed ((Printers.begin bare [.print (single "u"), .print (nested "v")]).steps sched) 1 (.ok out) ∧ ∀ e, ¬ IsXml out e := by
  refine ⟨turns 0 4 ++ turns 1 10 ++ turns 0 7 ++ turns 1 7, _, bare_good, isOutput_iff (out :=
    Raw.write (.elem ⟨some "ns0".toList, "x".toList⟩ [(⟨some xmlnsName, "ns0".toList⟩, "v".toList)] "\n    ".toList
      [.elem ⟨some "ns1".toList, "x".toList⟩ [] [] [] "\n".toList] [])) (by decide +kernel), broken ?_ ?_ ?_ ?_ ?_ (by rfl)⟩
  · constructor <;> decide +kernel
  · constructor <;> decide +kernel
  · constructor <;> decide +kernel
  · constructor <;> decide +kernel
  · unfold AttValue; decide +kernel

set_option maxRecDepth 20000 in
/-- C98, violated: at another moment printing fails, although there are prefixes enough. -/
theorem C98_violated_fails : ∃ sched : List Nat,
    Printed ((Printers.begin bare [.print (single "u"), .print (nested "v")]).steps sched) 1 (.error .keyError) :=
  ⟨turns 0 4 ++ turns 1 8 ++ turns 0 7 ++ turns 1 7, isKeyError_iff (by decide +kernel)⟩

set_option maxRecDepth 20000 in
/-- C98, violated: three threads can leave the registry with one prefix for two namespaces, although each has printed its
document; from then on documents are printed wrongly (see `C76_violated_prefixes`) even by a single thread. -/
theorem C98_violated_lasting : ∃ sched : List Nat,
    let s := (Printers.begin bare [.print (single "u"), .print (single "v"), .print (single "u")]).steps sched
    (∀ i < 3, ∃ out, Printed s i (.ok out)) ∧
      s.shared.now.lookup "u".toList = some "ns0".toList ∧ s.shared.now.lookup "v".toList = some "ns0".toList := by
  refine ⟨turns 0 4 ++ turns 1 4 ++ turns 0 6 ++ turns 1 6 ++ turns 2 4 ++ turns 0 1 ++ turns 1 1 ++ turns 2 7, ?_, by decide +kernel, by decide +kernel⟩
  intro i hi
  match i, hi with
  | 0, _ => exact ⟨_, isOutput_iff (out := "<ns0:x xmlns:ns0=\"u\"></ns0:x>".toList) (by decide +kernel)⟩
  | 1, _ => exact ⟨_, isOutput_iff (out := "<ns0:x xmlns:ns0=\"v\"></ns0:x>".toList) (by decide +kernel)⟩
  | 2, _ => exact ⟨_, isOutput_iff (out := "<ns1:x xmlns:ns1=\"u\"></ns1:x>".toList) (by decide +kernel)⟩

/-! ## Cases -/

set_option maxRecDepth 20000 in
/-- `C98_registered_partial`, `C98_reads_partial`: the same threads in the same order, with the namespace of responses
registered from the start. -/
example : let base := bare ++ [(contextUri, "xacml-context".toList)]
    HasPrefixes base answerTree ∧ SamePrefixes base answerTree readAndWrite ∧
    ∃ x, Printed ((Printers.begin base readAndWrite).steps (turns 0 4 ++ turns 1 10 ++ turns 0 1 ++ turns 1 7)) 1 x := by
  have hn : namespaces answerTree = [contextUri, contextUri] := by decide +kernel
  refine ⟨fun u hu => ?_, ?_, _, isOutput_iff (out :=
    "<xacml-context:Response xmlns:xacml-context=\"urn:oasis:names:tc:xacml:2.0:context:schema:os\">\n    <xacml-context:Result></xacml-context:Result>\n</xacml-context:Response>".toList)
    (by decide +kernel)⟩
  · have : u = contextUri := by rw [hn] at hu; simpa using hu
    rw [this]
    exact ⟨by decide +kernel, "xacml-context".toList, by decide +kernel⟩
  · intro uri p c e' h _
    simp only [readAndWrite, List.mem_cons, List.not_mem_nil, or_false, reduceCtorEq, false_or, PrintJob.write.injEq] at h
    obtain ⟨rfl, rfl, _⟩ := h
    decide +kernel

set_option maxRecDepth 20000 in
/-- `C98_written`, `C98_requests`: two threads that write, where the namespace is not registered before. -/
example : let jobs : List PrintJob := [.write contextUri "xacml-context".toList 2 answerTree, .write contextUri "xacml-context".toList 2 answerTree]
    (∀ j ∈ jobs, ∃ count e, j = .write contextUri "xacml-context".toList (count + 1) e) ∧ (∀ u ∈ namespaces answerTree, u = contextUri) ∧
    ∃ x, Printed ((Printers.begin bare jobs).steps (turns 0 1 ++ turns 1 10 ++ turns 0 12 ++ turns 1 7)) 0 x := by
  have hn : namespaces answerTree = [contextUri, contextUri] := by decide +kernel
  refine ⟨by simp, by simp [hn], _, isOutput_iff (out :=
    "<xacml-context:Response xmlns:xacml-context=\"urn:oasis:names:tc:xacml:2.0:context:schema:os\">\n    <xacml-context:Result></xacml-context:Result>\n</xacml-context:Response>".toList)
    (by decide +kernel)⟩

/-- `C98_finishes`: two threads that take turns. -/
example : FairFor 1 (fun n => n % 2) := fun n => ⟨2 * n + 1, by omega, by show (2 * n + 1) % 2 = 1; omega⟩

end Xacml
