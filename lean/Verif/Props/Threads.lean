import Verif.Lemmas.Threads
import Verif.Spec.Threads
import Verif.Spec.Samples

/-!
# C73, C100: evaluations in several threads, and replacing the policy or registering data types meanwhile
-/
namespace Xacml
open Spec

private structure Inv (env : Env) (s : Process) : Prop where
  coh : Coh env.re s.shared.world
  safe : ∀ t ∈ s.threads, t.Safe env.re

/-- What a thread relies on once it has found the policy. -/
private def ground (env : Env) (p : Option PolicyNode) : Ground :=
  ⟨env.re, env.classMap, fun dt => ∃ q, p = some q ∧ AsksFor q dt⟩

private theorem pdp_body (env : Env) (ctx : Ctx) (hp : StatelessPip ctx) (p : Option PolicyNode) :
    Impl (ground env p) (match p with
      | none => Prog.throw .attributeError
      | some p => p.evaluateResponseT env ctx) (pdpEvaluate env p ctx) := by
  cases p with
  | none => exact Impl.throw _
  | some p => exact Impl.response ⟨rfl, rfl⟩ hp p fun l hl dt hd => ⟨p, rfl, l, hl, hd⟩

/-- After its first step, a thread is bound to the policy it found. -/
private theorem pdp_first (env : Env) (ctx : Ctx) (hp : StatelessPip ctx) :
    ∃ k, pdpEvaluateT env ctx = .act id k ∧ ∀ (s : Shared) (m : List (String × AVClass)),
      (k s).Always (ground { env with classMap := m } s.policy)
        (pdpEvaluate { env with classMap := m } s.policy ctx start).1 := by
  refine ⟨_, rfl, fun s m => ?_⟩
  obtain ⟨h1, x, hx⟩ := pdp_body { env with classMap := m } ctx hp s.policy
  have h2 := hx.runAlone (s := ⟨start, none, m⟩) (fun p m h => by simp [start] at h) fun _ _ => rfl
  rw [h1 _ fun _ _ => rfl] at h2
  simp only at h2
  rw [h2]
  have e : (match s.policy with
      | none => Prog.throw .attributeError
      | some p => p.evaluateResponseT { env with classMap := m } ctx : Thread Response) =
      match s.policy with
      | none => Prog.throw .attributeError
      | some p => p.evaluateResponseT env ctx := by
    simp only [PolicyNode.evaluateResponseT, NoClasses.policy]
  rw [e] at hx
  exact hx

private theorem step_run (s : Process) (i : Nat) : s.step (.run i) = match s.threads[i]? with
    | some (.act f k) => { shared := f s.shared, threads := s.threads.set i (k s.shared) }
    | _ => s := rfl

private theorem Inv.step {env : Env} {s : Process} (h : Inv env s) (e : Event) : Inv env (s.step e) := by
  cases e with
  | install p => exact ⟨h.coh, h.safe⟩
  | register i c => exact ⟨h.coh, h.safe⟩
  | run i =>
    rw [step_run]
    split
    · rename_i f k hi
      obtain ⟨h1, _, h3⟩ := h.safe _ (List.mem_of_getElem? hi) s.shared h.coh
      refine ⟨h1, fun t ht => ?_⟩
      rcases List.mem_or_eq_of_mem_set ht with h' | h'
      · exact h.safe t h'
      · rw [h']; exact h3
    · exact h

private theorem Inv.steps {env : Env} {s : Process} (h : Inv env s) (es : List Event) : Inv env (s.steps es) := by
  induction es generalizing s with
  | nil => exact h
  | cons e es ih => exact ih (h.step e)

private theorem step_policy {env : Env} {s : Process} (h : Inv env s) (e : Event) :
    (s.step e).shared.policy = inForce s.shared.policy [e] ∧
      (s.step e).shared.classMap = registeredClasses s.shared.classMap [e] := by
  cases e with
  | install p => exact ⟨rfl, rfl⟩
  | register i c => exact ⟨rfl, rfl⟩
  | run i =>
    rw [step_run]
    split
    · rename_i f k hi
      exact (h.safe _ (List.mem_of_getElem? hi) s.shared h.coh).2.1
    · exact ⟨rfl, rfl⟩

private theorem inForce_cons (p : Option PolicyNode) (e : Event) (es : List Event) :
    inForce p (e :: es) = inForce (inForce p [e]) es := by cases e <;> rfl

private theorem registered_cons (m : List (String × AVClass)) (e : Event) (es : List Event) :
    registeredClasses m (e :: es) = registeredClasses (registeredClasses m [e]) es := by cases e <;> rfl

private theorem step_other {s : Process} {i : Nat} {e : Event} (h : e ≠ .run i) :
    (s.step e).threads[i]? = s.threads[i]? := by
  cases e with
  | install p => rfl
  | register i c => rfl
  | run j =>
    have hj : j ≠ i := fun h' => h (by rw [h'])
    rw [step_run]
    split
    · simp [List.getElem?_set, hj]
    · rfl

private theorem step_self {s : Process} {i : Nat} {f k} (h : s.threads[i]? = some (.act f k)) :
    (s.step (.run i)).threads[i]? = some (k s.shared) := by
  rw [step_run, h]
  have hl : i < s.threads.length := by
    rcases Nat.lt_or_ge i s.threads.length with h' | h'
    · exact h'
    · rw [List.getElem?_eq_none h'] at h; cases h
  simp [hl]

private theorem step_done {s : Process} {i : Nat} {x} (h : s.threads[i]? = some (.done x)) :
    s.step (.run i) = s := by
  rw [step_run, h]

private theorem set_lookup (m : List (String × AVClass)) (k : String) (v : AVClass) (u : String) (h : u ≠ k) :
    (dictSet m k v).lookup u = m.lookup u := by
  induction m with
  | nil => simp [dictSet, List.lookup, beq_eq_false_iff_ne.2 h]
  | cons x m ih =>
    rcases x with ⟨a, b⟩
    unfold dictSet
    by_cases ha : a = k
    · subst ha
      simp [List.lookup, beq_eq_false_iff_ne.2 h]
    · have : (a == k) = false := by simpa using ha
      simp [this, List.lookup_cons, ih]

/-- No class for a data type relied on is set. -/
private def Quiet (g : Ground) (es : List Event) : Prop := ∀ dt c, .register dt c ∈ es → ¬g.asked dt

private theorem quiet_step {env : Env} {s : Process} (h : Inv env s) {g : Ground} (hc : g.Classes s.shared) {e : Event}
    (hq : ∀ dt c, e = .register dt c → ¬g.asked dt) : g.Classes (s.step e).shared := by
  intro dt hd
  rw [(step_policy h e).2]
  cases e with
  | install p => exact hc dt hd
  | run j => exact hc dt hd
  | register i c =>
    have hne : dt ≠ i := fun h => hq i c rfl (h ▸ hd)
    show (dictSet s.shared.classMap i c).lookup dt = _
    rw [set_lookup _ _ _ _ hne]
    exact hc dt hd

private theorem started {env : Env} {i : Nat} {x} {g : Ground} (hg : g.re = env.re) (es : List Event) {s : Process}
    (h : Inv env s) (hc : g.Classes s.shared) (hq : Quiet g es) {t : Thread Response}
    (ht : s.threads[i]? = some t) (hx : t.Always g x) {y} (hy : Finished (s.steps es) i y) : y = x := by
  induction es generalizing s t with
  | nil =>
    have : some t = some (.done y) := ht.symm.trans hy
    injection this with this
    subst this
    exact hx
  | cons e es ih =>
    have hc' := quiet_step h hc (e := e) fun dt c he => hq dt c (he ▸ List.mem_cons_self ..)
    have hq' : Quiet g es := fun dt c hm => hq dt c (List.mem_cons_of_mem _ hm)
    by_cases he : e = .run i
    · subst he
      cases t with
      | done z =>
        rw [Process.steps, List.foldl_cons, step_done ht] at hy
        exact ih h hc hq' ht hx hy
      | act f k => exact ih (h.step _) hc' hq' (step_self ht) (hx s.shared (hg ▸ h.coh) hc).2.2 hy
    · exact ih (h.step _) hc' hq' (by rw [step_other he]; exact ht) hx hy

private theorem notStarted {env : Env} {i : Nat} {ctx : Ctx} (hp : StatelessPip ctx) (es : List Event) {s : Process}
    (h : Inv env s) (ht : s.threads[i]? = some (pdpEvaluateT env ctx)) {y} (hy : Finished (s.steps es) i y) :
    ∃ pre post, es = pre ++ .run i :: post ∧ .run i ∉ pre ∧
      ∀ m, (∀ p dt, inForce s.shared.policy pre = some p → AsksFor p dt →
          (registeredClasses s.shared.classMap pre).lookup dt = m.lookup dt ∧ ∀ c, .register dt c ∉ post) →
        y = (pdpEvaluate { env with classMap := m } (inForce s.shared.policy pre) ctx start).1 := by
  obtain ⟨k, hk, hk'⟩ := pdp_first env ctx hp
  induction es generalizing s with
  | nil =>
    have h1 : some (pdpEvaluateT env ctx) = some (.done y) := ht.symm.trans hy
    rw [hk] at h1
    cases h1
  | cons e es ih =>
    by_cases he : e = .run i
    · subst he
      rw [hk] at ht
      refine ⟨[], es, rfl, by simp, fun m hm => ?_⟩
      refine started (g := ground { env with classMap := m } s.shared.policy) rfl es (h.step _) ?_ ?_
        (step_self ht) (hk' s.shared m) hy
      · refine quiet_step h ?_ fun dt c he => by cases he
        rintro dt ⟨q, hq, ha⟩
        exact (hm q dt hq ha).1
      · rintro dt c hr ⟨q, hq, ha⟩
        exact (hm q dt hq ha).2 c hr
    · obtain ⟨pre, post, h1, h2, h3⟩ := ih (h.step e) (by rw [step_other he]; exact ht) hy
      refine ⟨e :: pre, post, by rw [h1]; rfl, ?_, ?_⟩
      · simp only [List.mem_cons, not_or]
        exact ⟨fun h => he h.symm, h2⟩
      · rw [inForce_cons, registered_cons, ← (step_policy h e).1, ← (step_policy h e).2]
        exact h3

private theorem begin_inv {env : Env} {w : World} (hw : History env.re w) (p : Option PolicyNode)
    (m : List (String × AVClass)) (ctxs : List Ctx) : Inv env (Process.begin env ⟨w, p, m⟩ ctxs) := by
  refine ⟨history_coh hw, fun t ht => ?_⟩
  obtain ⟨c, hc, rfl⟩ := List.mem_map.1 ht
  exact Safe.pdp rfl c

/-- C100: requests are evaluated in any number of threads on one PDP, interleaved in any way, while other threads assign
new policies to the PDP and register classes for data types. If a request's thread has finished, and since it started
no class was registered for a data type that the policy in force at its start asks for, what it returned (or raised) is
what evaluating this request alone returns, in a new process with that policy and the classes registered when it
started. -/
theorem C100_registering (env : Env) (w : World) (hw : History env.re w) (policy : Option PolicyNode)
    (ctxs : List Ctx) (sched : List Event) (i : Nat) (ctx : Ctx) (hi : ctxs[i]? = some ctx) (hp : StatelessPip ctx)
    (x : Except Exc Response) (hx : Finished ((Process.begin env ⟨w, policy, env.classMap⟩ ctxs).steps sched) i x) :
    ∃ before after, sched = before ++ .run i :: after ∧ .run i ∉ before ∧
      ((∀ p dt c, inForce policy before = some p → .register dt c ∈ after → ¬AsksFor p dt) →
        x = (pdpEvaluate { env with classMap := registeredClasses env.classMap before } (inForce policy before) ctx start).1) := by
  obtain ⟨b, a, h1, h2, h3⟩ := notStarted hp sched (begin_inv hw policy env.classMap ctxs)
    (by simp [Process.begin, hi]) hx
  exact ⟨b, a, h1, h2, fun hr => h3 _ fun p dt hf ha => ⟨rfl, fun c hc => hr p dt c hf hc ha⟩⟩

/-- The class registered for a data type stays the same if only others are set. -/
private theorem registered_lookup (m : List (String × AVClass)) (dt : String) (es : List Event)
    (h : ∀ c, .register dt c ∉ es) : (registeredClasses m es).lookup dt = m.lookup dt := by
  induction es generalizing m with
  | nil => rfl
  | cons e es ih =>
    have ih := fun m => ih m fun c hc => h c (List.mem_cons_of_mem _ hc)
    cases e with
    | install p => exact ih m
    | run j => exact ih m
    | register i c =>
      have hne : dt ≠ i := fun hd => h c (hd ▸ List.mem_cons_self ..)
      exact (ih _).trans (set_lookup _ _ _ _ hne)

private theorem set_lookup_self (m : List (String × AVClass)) (k : String) (v : AVClass) :
    (dictSet m k v).lookup k = some v := by
  induction m with
  | nil => simp [dictSet, List.lookup_cons]
  | cons x m ih =>
    rcases x with ⟨a, b⟩
    unfold dictSet
    by_cases ha : a = k
    · subst ha
      simp [List.lookup_cons]
    · have h1 : (a == k) = false := by simpa using ha
      have h2 : (k == a) = false := by simpa using fun h => ha h.symm
      simp [h1, h2, List.lookup_cons, ih]

/-- C100: the classes that count are, for each data type, the last one registered. -/
theorem C100_last (m : List (String × AVClass)) (dt : String) (es : List Event) :
    (registeredClasses m es).lookup dt = lastRegistered dt (m.lookup dt) es := by
  induction es generalizing m with
  | nil => rfl
  | cons e es ih =>
    cases e with
    | install p => exact ih m
    | run j => exact ih m
    | register i c =>
      refine (ih _).trans ?_
      show _ = lastRegistered dt (if i = dt then some c else m.lookup dt) es
      by_cases h : i = dt
      · subst h; rw [set_lookup_self, if_pos rfl]
      · rw [set_lookup _ _ _ _ fun h' => h h'.symm, if_neg h]

/-- C100: registrations of data types that no policy asks for do not matter at all, whenever they happen. -/
theorem C100_unrelated (env : Env) (w : World) (hw : History env.re w) (policy : Option PolicyNode)
    (ctxs : List Ctx) (sched : List Event)
    (hr : ∀ dt c, .register dt c ∈ sched → ∀ p, policy = some p ∨ .install p ∈ sched → ¬AsksFor p dt)
    (i : Nat) (ctx : Ctx) (hi : ctxs[i]? = some ctx) (hp : StatelessPip ctx)
    (x : Except Exc Response) (hx : Finished ((Process.begin env ⟨w, policy, env.classMap⟩ ctxs).steps sched) i x) :
    ∃ before after, sched = before ++ .run i :: after ∧ .run i ∉ before ∧
      x = (pdpEvaluate env (inForce policy before) ctx start).1 := by
  obtain ⟨b, a, h1, h2, h3⟩ := notStarted hp sched (begin_inv hw policy env.classMap ctxs)
    (by simp [Process.begin, hi]) hx
  refine ⟨b, a, h1, h2, h3 env.classMap fun p dt hf ha => ?_⟩
  have hin : policy = some p ∨ .install p ∈ sched := by
    have : ∀ (es : List Event) (o : Option PolicyNode), inForce o es = some p → o = some p ∨ .install p ∈ es := by
      intro es
      induction es with
      | nil => exact fun o h => .inl h
      | cons e es ih =>
        intro o h
        cases e with
        | install q =>
          rcases ih _ h with h | h
          · cases h; exact .inr (List.mem_cons_self ..)
          · exact .inr (List.mem_cons_of_mem _ h)
        | run j => exact (ih _ h).imp_right (List.mem_cons_of_mem _)
        | register j c => exact (ih _ h).imp_right (List.mem_cons_of_mem _)
    exact (this b _ hf).imp_right fun h => by rw [h1]; exact List.mem_append_left _ h
  have hno : ∀ c, .register dt c ∉ sched := fun c hc => hr dt c hc p hin ha
  exact ⟨registered_lookup _ _ _ fun c hc => hno c (by rw [h1]; exact List.mem_append_left _ hc),
    fun c hc => hno c (by rw [h1]; exact List.mem_append_right _ (List.mem_cons_of_mem _ hc))⟩

/-- C73: requests are evaluated in any number of threads on one PDP, interleaved in any way, while
other threads assign new policies to the PDP. If a request's thread has finished, what it returned
(or raised) is what evaluating this request alone, in a new process, with one policy returns: the
policy in force when its evaluation started. -/
theorem C73_interleaved (env : Env) (w : World) (hw : History env.re w) (policy : Option PolicyNode)
    (ctxs : List Ctx) (sched : List Event) (hr : ∀ dt c, .register dt c ∉ sched)
    (i : Nat) (ctx : Ctx) (hi : ctxs[i]? = some ctx) (hp : StatelessPip ctx) (x : Except Exc Response)
    (hx : Finished ((Process.begin env ⟨w, policy, env.classMap⟩ ctxs).steps sched) i x) :
    ∃ before after, sched = before ++ .run i :: after ∧ .run i ∉ before ∧
      x = (pdpEvaluate env (inForce policy before) ctx start).1 :=
  C100_unrelated env w hw policy ctxs sched (fun dt c h => absurd h (hr dt c)) i ctx hi hp x hx

/-- C73, when the policy is not replaced: the schedule does not matter. -/
theorem C73_schedule_independent (env : Env) (w : World) (hw : History env.re w) (policy : Option PolicyNode)
    (ctxs : List Ctx) (sched : List Event)
    (hs : ∀ q, .install q ∉ sched) (hr : ∀ dt c, .register dt c ∉ sched)
    (i : Nat) (ctx : Ctx) (hi : ctxs[i]? = some ctx) (hp : StatelessPip ctx) (x : Except Exc Response)
    (hx : Finished ((Process.begin env ⟨w, policy, env.classMap⟩ ctxs).steps sched) i x) :
    x = (pdpEvaluate env policy ctx start).1 := by
  obtain ⟨b, a, h1, h2, h3⟩ := C73_interleaved env w hw policy ctxs sched hr i ctx hi hp x hx
  have : inForce policy b = policy := by
    have hb : ∀ q, .install q ∉ b := fun q hq => hs q (by rw [h1]; simp [hq])
    clear h1 h2 h3
    induction b with
    | nil => rfl
    | cons e b ih =>
      cases e with
      | install q => exact absurd (by simp) (hb q)
      | run j => exact ih (fun q hq => hb q (by simp [hq]))
      | register j c => exact ih (fun q hq => hb q (by simp [hq]))
  rw [h3, this]

private theorem steps_succ (s : Process) (σ : Nat → Event) (n : Nat) :
    s.steps ((List.range (n + 1)).map σ) = (s.steps ((List.range n).map σ)).step (σ n) := by
  simp [Process.steps, List.range_succ]

private theorem finishes {i : Nat} {σ : Nat → Event} (hσ : FairTo i σ) (s : Process) (t : Thread Response) :
    ∀ n, (s.steps ((List.range n).map σ)).threads[i]? = some t →
    ∃ m x, n ≤ m ∧ Finished (s.steps ((List.range m).map σ)) i x := by
  induction t with
  | done x => exact fun n h => ⟨n, x, Nat.le_refl n, h⟩
  | act f k ih =>
    intro n h
    obtain ⟨m, hm, he⟩ := hσ n
    -- the first turn of thread `i` from `n` on
    have key : ∀ d n, m = n + d → (s.steps ((List.range n).map σ)).threads[i]? = some (.act f k) →
        ∃ n' s', n ≤ n' ∧ (s.steps ((List.range n').map σ)).threads[i]? = some (k s') := by
      intro d
      induction d with
      | zero =>
        intro n hd h
        have : m = n := hd
        subst this
        refine ⟨m + 1, (s.steps ((List.range m).map σ)).shared, Nat.le_succ m, ?_⟩
        rw [steps_succ, he]
        exact step_self h
      | succ d ihd =>
        intro n hd h
        by_cases hn : σ n = .run i
        · refine ⟨n + 1, (s.steps ((List.range n).map σ)).shared, Nat.le_succ n, ?_⟩
          rw [steps_succ, hn]
          exact step_self h
        · obtain ⟨n', s', h1, h2⟩ := ihd (n + 1) (by omega) (by rw [steps_succ, step_other hn]; exact h)
          exact ⟨n', s', by omega, h2⟩
    obtain ⟨n', s', h1, h2⟩ := key (m - n) n (by omega) h
    obtain ⟨m', x, h3, h4⟩ := ih s' n' h2
    exact ⟨m', x, by omega, h4⟩

/-- C73: no evaluation waits for another one: as long as its thread gets turns it finishes,
whatever the other threads do. -/
theorem C73_finishes (env : Env) (shared : Shared) (ctxs : List Ctx) (σ : Nat → Event)
    (i : Nat) (hi : i < ctxs.length) (hσ : FairTo i σ) :
    ∃ n x, Finished ((Process.begin env shared ctxs).steps ((List.range n).map σ)) i x := by
  obtain ⟨m, x, _, h⟩ := finishes hσ (Process.begin env shared ctxs) (pdpEvaluateT env ctxs[i]) 0
    (by simp [Process.steps, Process.begin, hi])
  exact ⟨m, x, h⟩

/-- C73: concurrent evaluations leave nothing behind that later ones could notice. -/
theorem C73_afterwards (env : Env) (w : World) (hw : History env.re w) (policy : Option PolicyNode)
    (ctxs : List Ctx) (sched : List Event)
    (q : Option PolicyNode) (ctx : Ctx) (hc : StatelessPip ctx) :
    (pdpEvaluate env q ctx ((Process.begin env ⟨w, policy, env.classMap⟩ ctxs).steps sched).shared.world).1 =
      (pdpEvaluate env q ctx start).1 := by
  have h := ((begin_inv hw policy env.classMap ctxs).steps sched).coh
  obtain ⟨h1, x, hx⟩ := pdp_body env ctx hc q
  have e1 := hx.runAlone (s := ⟨_, none, env.classMap⟩) h fun _ _ => rfl
  have e2 := hx.runAlone (s := ⟨start, none, env.classMap⟩) (fun p m h => by simp [start] at h) fun _ _ => rfl
  rw [h1 _ fun _ _ => rfl] at e1 e2
  exact e1.trans e2.symm

/-- C100: nor do they undo a registration: afterwards the class for each data type is the one registered last, and the
policy the one assigned last. -/
theorem C100_afterwards (env : Env) (w : World) (hw : History env.re w) (policy : Option PolicyNode)
    (m : List (String × AVClass)) (ctxs : List Ctx) (sched : List Event) :
    (∀ dt, ((Process.begin env ⟨w, policy, m⟩ ctxs).steps sched).shared.classMap.lookup dt =
      lastRegistered dt (m.lookup dt) sched) ∧
    ((Process.begin env ⟨w, policy, m⟩ ctxs).steps sched).shared.policy = inForce policy sched := by
  have key : ∀ (es : List Event) (s : Process), Inv env s →
      (s.steps es).shared.classMap = registeredClasses s.shared.classMap es ∧
        (s.steps es).shared.policy = inForce s.shared.policy es := by
    intro es
    induction es with
    | nil => exact fun s _ => ⟨rfl, rfl⟩
    | cons e es ih =>
      intro s h
      rw [inForce_cons, registered_cons, ← (step_policy h e).1, ← (step_policy h e).2]
      exact ih _ (h.step e)
  obtain ⟨h1, h2⟩ := key sched _ (begin_inv hw policy m ctxs)
  exact ⟨fun dt => h1 ▸ C100_last m dt sched, h2⟩

/-- The threads are the evaluator of `Verif.Model.Policy` cut into steps: run without
interruption, one returns the same and leaves the same world. -/
theorem C73_uninterrupted (env : Env) (w : World) (policy : Option PolicyNode) (ctx : Ctx)
    (hc : StatelessPip ctx) :
    ∃ n, (Process.begin env ⟨w, policy, env.classMap⟩ [ctx]).steps (List.replicate n (.run 0)) =
      ⟨⟨(pdpEvaluate env policy ctx w).2, policy, env.classMap⟩, [.done (pdpEvaluate env policy ctx w).1]⟩ := by
  have key : ∀ (t : Thread Response) (s : Shared), ∃ n, (Process.mk s [t]).steps (List.replicate n (.run 0)) =
      ⟨(t.runAlone s).2, [.done (t.runAlone s).1]⟩ := by
    intro t
    induction t with
    | done x => exact fun s => ⟨0, rfl⟩
    | act f k ih =>
      intro s
      obtain ⟨n, hn⟩ := ih s (f s)
      exact ⟨n + 1, hn⟩
  obtain ⟨n, hn⟩ := key (pdpEvaluateT env ctx) ⟨w, policy, env.classMap⟩
  refine ⟨n, hn.trans ?_⟩
  have : (pdpEvaluateT env ctx).runAlone ⟨w, policy, env.classMap⟩ =
      ((pdpEvaluate env policy ctx w).1, ⟨(pdpEvaluate env policy ctx w).2, policy, env.classMap⟩) :=
    (pdp_body env ctx hc policy).alone ⟨w, policy, env.classMap⟩ fun _ _ => rfl
  rw [this]

section NonVacuity
open Samples
/-- A policy matching the role by regular expression: evaluation reads and writes the cache. -/
private def regexPolicy (e : Effect) : PolicyNode :=
  .policy { hdr .denyOverrides (some (roleTarget "admin")) with
    target := some { roleTarget "admin" with subjects := [{ matches_ := [{ roleMatch "admin" with
      func := some (.regexpMatch stringClass) }] }] } } [always e]

/-- Both threads miss in the cache and both store the pattern. -/
private def race : List Event := [.run 0, .run 1, .run 0, .run 1, .run 0, .run 1, .run 0, .run 1,
  .run 0, .run 1, .run 0, .run 1, .run 0, .run 1]

example : let s := (Process.begin env ⟨start, some (regexPolicy .permit), env.classMap⟩ [ctx, ctx]).steps race
    s.shared.world.cache.length = 2 ∧
      s.threads.map (fun t => match t with | .done (.ok r) => r.results.map (·.decision) | _ => []) =
        [[.permit], [.permit]] := by decide +kernel

/-- The policy is replaced after thread 0 has started and before thread 1 has. -/
example : ((Process.begin env ⟨start, some (regexPolicy .permit), env.classMap⟩ [ctx, ctx]).steps
      (.run 0 :: .install (regexPolicy .deny) :: race)).threads.map (fun t => match t with | .done (.ok r) => r.results.map (·.decision) | _ => []) =
      [[.permit], [.deny]] := by decide +kernel

/-- The decisions in a response. -/
def decisionsGiven : Except Exc Response → Option (List Decision)
  | .ok r => some (r.results.map (·.decision))
  | .error _ => none

/-- Two unrelated classes for colours. -/
def ownColour : AVClass := { uid := "Colour", identifier := "urn:example:colour", native := .str, ancestors := [] }
def otherColour : AVClass := { uid := "OtherColour", identifier := "urn:example:colour", native := .str, ancestors := [] }

/-- The colour in the resource is red. -/
def isRed (c : AVClass) : Match :=
  { value := some { cls := c, dataType := "urn:example:colour", value := some (.str "red") }, designator := none
    selector := some { path := some "colour", dataType := some "urn:example:colour", mustBePresent := true }
    func := some (.equal c) }
/-- Applies if all of them match. -/
def redTarget (ms : List Match) : Target := { subjects := [], resources := [{ matches_ := ms }], actions := [], environments := [] }
/-- A policy with this effect on red resources. -/
def redPolicy (e : Effect) : PolicyNode := .policy (hdr .denyOverrides (some (redTarget [isRed ownColour]))) [always e]
/-- Permits red resources, and would deny them otherwise. -/
def redSet : PolicyNode := .policySet (hdr .permitOverrides) [redPolicy .permit, redPolicy .deny]
/-- Permits what is red both as a colour of one class and as one of the other. -/
def bothPolicy : PolicyNode :=
  .policy (hdr .denyOverrides (some (redTarget [isRed ownColour, isRed otherColour]))) [always .permit]
/-- A request for a red resource. -/
def redRequest : Ctx :=
  some { data := data, ctxHandler := none, attributeSelector := some fun _ => .ok [some (.str "red")] }
/-- The environment with these classes for colours. -/
def withColour (c : AVClass) : Env := { env with classMap := dictSet env.classMap "urn:example:colour" c }

theorem redRequest_stateless : StatelessPip redRequest := fun r h pip hp => by
  cases h
  cases hp

/-- C100 is violated if the policy asks for the data type: a type is registered between the evaluation of two policies
in a set. The first one fails and the second one denies, so the request is denied. Decided before the registration it
is Indeterminate, and decided after it, it is permitted. -/
theorem C100_violated_mixed : ∃ x,
    Finished ((Process.begin env ⟨start, some redSet, env.classMap⟩ [redRequest]).steps
      [.run 0, .run 0, .register "urn:example:colour" ownColour, .run 0]) 0 x ∧
    decisionsGiven x = some [.deny] ∧
    decisionsGiven (pdpEvaluate env (some redSet) redRequest start).1 = some [.indeterminate] ∧
    decisionsGiven (pdpEvaluate (withColour ownColour) (some redSet) redRequest start).1 = some [.permit] :=
  ⟨_, rfl, by decide +kernel, by decide +kernel, by decide +kernel⟩

/-- C100 is violated: when a class is replaced meanwhile, a request may even be permitted although it is not permitted
with either class. -/
theorem C100_violated_permit : ∃ x,
    Finished ((Process.begin (withColour ownColour) ⟨start, some bothPolicy, (withColour ownColour).classMap⟩
      [redRequest]).steps [.run 0, .run 0, .register "urn:example:colour" otherColour, .run 0]) 0 x ∧
    decisionsGiven x = some [.permit] ∧
    decisionsGiven (pdpEvaluate (withColour ownColour) (some bothPolicy) redRequest start).1 = some [.indeterminate] ∧
    decisionsGiven (pdpEvaluate (withColour otherColour) (some bothPolicy) redRequest start).1 = some [.indeterminate] :=
  ⟨_, rfl, by decide +kernel, by decide +kernel, by decide +kernel⟩

/-- The type is registered after thread 0 has finished and before thread 1 starts. -/
example : ((Process.begin env ⟨start, some redSet, env.classMap⟩ [redRequest, redRequest]).steps
      [.run 0, .run 0, .run 0, .register "urn:example:colour" ownColour, .run 1, .run 1]).threads.map
        (fun t => match t with | .done x => decisionsGiven x | _ => none) =
      [some [.indeterminate], some [.permit]] := by decide +kernel

/-- Another type, and a policy that does not ask for it. -/
example : ((Process.begin env ⟨start, some (regexPolicy .permit), env.classMap⟩ [ctx, ctx]).steps
      (.run 0 :: .register "urn:example:colour" ownColour :: race)).threads.map
        (fun t => match t with | .done x => decisionsGiven x | _ => none) = [some [.permit], some [.permit]] ∧
    ¬AsksFor (regexPolicy .permit) "urn:example:colour" := by
  refine ⟨by decide +kernel, ?_⟩
  rintro ⟨l, h, ha⟩
  have hl : l = .designator .subject roleDes := by
    cases h with
    | policyTarget h =>
      obtain ⟨t, ht, c, hc, m, hm, h⟩ := h
      cases ht
      simp only [roleTarget, List.mem_append, List.mem_singleton, List.not_mem_nil, or_false] at hc
      subst hc
      simp only [List.mem_singleton] at hm
      subst hm
      rcases h with ⟨_, _, h1, h2⟩ | ⟨_, h1, _⟩
      · cases h1; exact h2
      · cases h1
    | rule hm h =>
      simp only [List.mem_singleton] at hm
      subst hm
      rcases h with ⟨_, h, _⟩ | ⟨_, _, h, _⟩ <;> cases h
  subst hl
  exact absurd (show some (xsd "string") = some "urn:example:colour" from ha) (by decide)

example : AsksFor (redPolicy .permit) "urn:example:colour" :=
  ⟨_, .policyTarget ⟨_, rfl, { matches_ := [isRed ownColour] }, by simp [redTarget], isRed ownColour, by simp,
    .inr ⟨_, rfl, rfl⟩⟩, rfl⟩

example : StatelessPip ctx := fun r h pip hp => by
  have : r = req := by cases h; rfl
  subst this
  cases hp

example : FairTo 1 (fun n => .run (n % 2)) := fun n => ⟨2 * n + 1, by omega, by
  show Event.run ((2 * n + 1) % 2) = _
  rw [show (2 * n + 1) % 2 = 1 by omega]⟩
end NonVacuity

end Xacml
