import Verif.Model.PrintThreads
import Verif.Spec.PrettyPrint

/-!
# Threads that print: states and results other threads cannot disturb
-/
namespace Xacml
open Spec

theorem nsGet_dictSet (m : List (Chars × Chars)) (k v u : Chars) :
    nsGet (dictSet m k v) u = if u = k then some v else nsGet m u := by
  have hb : ∀ a : Chars, ¬ u = a → (u == a) = false := fun a h => by simpa using h
  induction m with
  | nil => by_cases h : u = k <;> simp [dictSet, nsGet, List.lookup_cons, h, hb]
  | cons a m ih =>
    obtain ⟨a, b⟩ := a
    simp only [nsGet] at ih ⊢
    rw [dictSet]
    by_cases ha : a = k
    · subst ha
      by_cases h : u = a <;> simp [List.lookup_cons, h, hb]
    · by_cases h : u = a
      · subst h; simp [ha]
      · simp [List.lookup_cons, h, ha, ih, hb]

theorem dictSet_new {m : List (Chars × Chars)} {k : Chars} (v : Chars) (h : nsGet m k = none) :
    dictSet m k v = m ++ [(k, v)] := by
  induction m with
  | nil => rfl
  | cons a m ih =>
    obtain ⟨a, b⟩ := a
    simp only [nsGet, List.lookup_cons] at h
    split at h
    · cases h
    · rename_i hk
      have : (a == k) = false := by
        simp only [beq_eq_false_iff_ne] at hk ⊢
        exact fun e => hk e.symm
      rw [dictSet, this]
      simp [ih h]

/-- The dictionaries have the same prefixes for the namespaces. -/
def Agrees (us : List Chars) (base m : List (Chars × Chars)) : Prop := ∀ u ∈ us, nsGet m u = nsGet base u

/-- All of them do. -/
def AllAgree (us : List Chars) (base : List (Chars × Chars)) (s : NsShared) : Prop :=
  s.current < s.heap.length ∧ ∀ m ∈ s.heap, Agrees us base m

/-- Whatever such states the other threads leave before each step, the state stays like that and the result is as
said. `n` is the number of dictionaries there are at least. -/
def NsStable {α} (us : List Chars) (base : List (Chars × Chars)) (P : Except Exc α → Nat → Prop) : Nat → PrintThread α → Prop
  | n, .done x => P x n
  | n, .act f k => ∀ s, AllAgree us base s → n ≤ s.heap.length →
    AllAgree us base (f s) ∧ s.heap.length ≤ (f s).heap.length ∧ NsStable us base P s.heap.length (k s)

variable {us : List Chars} {base : List (Chars × Chars)}

theorem NsStable.bind {α β} {P : Except Exc α → Nat → Prop} {Q : Except Exc β → Nat → Prop} {n : Nat} {t : PrintThread α}
    {f : α → PrintThread β} (h : NsStable us base P n t) (hok : ∀ a m, P (.ok a) m → NsStable us base Q m (f a))
    (herr : ∀ e m, P (.error e) m → Q (.error e) m) : NsStable us base Q n (t >>= f) := by
  show NsStable us base Q n (Prog.bind f t)
  induction t generalizing n with
  | done x =>
    cases x with
    | ok a => exact hok a n h
    | error e => exact herr e n h
  | act g k ih => exact fun s hs hn => ⟨(h s hs hn).1, (h s hs hn).2.1, ih s (h s hs hn).2.2⟩

/-- The result is `x`. -/
abbrev Yields {α} (us : List Chars) (base : List (Chars × Chars)) (x : Except Exc α) (n : Nat) (t : PrintThread α) : Prop :=
  NsStable us base (fun y _ => y = x) n t

/-- It does no harm. -/
abbrev Harmless {α} (us : List Chars) (base : List (Chars × Chars)) (n : Nat) (t : PrintThread α) : Prop :=
  NsStable us base (fun _ _ => True) n t

theorem Yields.bind {α β} {a : α} {x : Except Exc β} {n : Nat} {t : PrintThread α} {f : α → PrintThread β}
    (h : Yields us base (.ok a) n t) (hf : ∀ m, Yields us base x m (f a)) : Yields us base x n (t >>= f) :=
  NsStable.bind h (fun b m hb => by cases hb; exact hf m) (fun _ _ he => by cases he)

theorem Harmless.bind {α β} {n : Nat} {t : PrintThread α} {f : α → PrintThread β}
    (h : Harmless us base n t) (hf : ∀ a m, Harmless us base m (f a)) : Harmless us base n (t >>= f) :=
  NsStable.bind h (fun b m _ => hf b m) (fun _ _ _ => trivial)

theorem NsStable.harmless {α} {P : Except Exc α → Nat → Prop} {n : Nat} {t : PrintThread α} (h : NsStable us base P n t) :
    Harmless us base n t := by
  induction t generalizing n with
  | done x => trivial
  | act g k ih => exact fun s hs hn => ⟨(h s hs hn).1, (h s hs hn).2.1, ih s (h s hs hn).2.2⟩

theorem Harmless.pure {α} (a : α) (n : Nat) : Harmless us base n (pure a) := trivial

theorem AllAgree.dict {s : NsShared} (h : AllAgree us base s) {r : Nat} (hr : r < s.heap.length) : Agrees us base (s.dict r) := by
  rw [NsShared.dict, List.getElem?_eq_getElem hr]
  exact h.2 _ (List.getElem_mem hr)

theorem AllAgree.assign {s : NsShared} (h : AllAgree us base s) {r : Nat} {uri p : Chars}
    (hu : uri ∈ us → nsGet base uri = some p) : AllAgree us base (s.assign r uri p) := by
  refine ⟨by simpa [NsShared.assign] using h.1, fun m hm' => ?_⟩
  rcases List.mem_or_eq_of_mem_set hm' with hm | hm
  · exact h.2 m hm
  · by_cases hr : r < s.heap.length
    · intro u hu'
      rw [hm, nsGet_dictSet]
      split
      · rename_i he; rw [he]; exact (hu (he ▸ hu')).symm
      · exact h.dict hr u hu'
    · have he : s.heap.set r (dictSet (s.dict r) uri p) = s.heap := List.set_eq_of_length_le (by omega)
      exact h.2 m (he ▸ hm')

theorem AllAgree.restore {s : NsShared} (h : AllAgree us base s) {b : List (Chars × Chars)} (hb : Agrees us base b) :
    AllAgree us base (s.restore b) := by
  refine ⟨by simp [NsShared.restore], fun m hm => ?_⟩
  rcases List.mem_append.1 hm with hm | hm
  · exact h.2 m hm
  · rw [List.mem_singleton.1 hm]; exact hb

/-- What is loaded is a dictionary. -/
theorem nsStable_load (n : Nat) : NsStable us base (fun x m => ∃ r, x = .ok r ∧ r < m) n loadNsMap :=
  fun s hs _ => ⟨hs, Nat.le_refl _, ⟨_, rfl, hs.1⟩⟩

/-- One look at the registry. -/
theorem nsStable_look {α} {Q : Except Exc α → Nat → Prop} {β} (g : List (Chars × Chars) → β) (n : Nat) (k : β → PrintThread α)
    (h : ∀ d m, Agrees us base d → NsStable us base Q m (k (g d))) :
    NsStable us base Q n (loadNsMap >>= fun r => Prog.read (fun s => g (s.dict r)) >>= k) := by
  refine NsStable.bind (nsStable_load n) ?_ (fun e m h => by obtain ⟨_, h, _⟩ := h; cases h)
  rintro r m ⟨r', hr, hm⟩
  cases hr
  intro s hs hn
  exact ⟨hs, Nat.le_refl _, h _ _ (hs.dict (Nat.lt_of_lt_of_le hm hn))⟩

/-- One assignment. -/
theorem nsStable_assign {α} {Q : Except Exc α → Nat → Prop} (n : Nat) (uri p : Chars) (hu : uri ∈ us → nsGet base uri = some p)
    (k : Unit → PrintThread α) (h : ∀ m, NsStable us base Q m (k ())) :
    NsStable us base Q n (loadNsMap >>= fun r => Prog.write (NsShared.assign r uri p) >>= k) := by
  refine NsStable.bind (nsStable_load n) ?_ (fun e m h => by obtain ⟨_, h, _⟩ := h; cases h)
  rintro r m ⟨r', hr, hm⟩
  intro s hs hn
  exact ⟨hs.assign hu, by simp [NsShared.assign], h _⟩

theorem harmless_check (n : Nat) (uri p : Chars) (m : List Chars) : Harmless us base n (checkNsPrefixT uri p m) := by
  refine nsStable_look (fun d => (nsGet d uri).isSome) n _ fun d m _ => ?_
  split <;> trivial

theorem yields_alloc (n : Nat) {uri p : Chars} (m : List Chars) (hu : uri ∈ us) (hp : nsGet base uri = some p) :
    Yields us base (.ok (p, m)) n (allocNsPrefixT uri m) := by
  refine nsStable_look (fun d => nsGet d uri) n _ fun d k hd => ?_
  rw [hd uri hu, hp]
  rfl

theorem harmless_alloc (hreg : ∀ u ∈ us, (nsGet base u).isSome = true) (n : Nat) (uri : Chars) (m : List Chars) :
    Harmless us base n (allocNsPrefixT uri m) := by
  refine nsStable_look (fun d => nsGet d uri) n _ fun d k hd => ?_
  cases h : nsGet d uri with
  | some p => trivial
  | none =>
    have hu : uri ∈ us → False := fun hu => by
      have := hreg uri hu
      rw [← hd uri hu, h] at this
      cases this
    dsimp only
    cases ((List.range 256).map nsName).find? (fun p => !m.contains p) with
    | none => exact harmless_check _ _ _ _
    | some p => exact nsStable_assign k uri p (fun h => (hu h).elim) _ fun j => harmless_check _ _ _ _

theorem harmless_attribs (hreg : ∀ u ∈ us, (nsGet base u).isSome = true) : (as : List (Chars × Chars)) → ∀ n d m,
    Harmless us base n (printAttribsT as d m)
  | [], _, _, _ => trivial
  | (a, v) :: as, n, d, m => by
    rw [printAttribsT]
    split
    · exact Harmless.bind (harmless_attribs hreg as n d m) fun r k => trivial
    · exact Harmless.bind (harmless_alloc hreg n _ m) fun p k =>
        Harmless.bind (harmless_attribs hreg as k _ _) fun r k => trivial

mutual
theorem harmless_elem (hreg : ∀ u ∈ us, (nsGet base u).isSome = true) : (e : PElem) → ∀ n indent space d m,
    Harmless us base n (printElemT indent space d m e)
  | .mk tag attrib text tail [], n, indent, space, d, m => by
    rw [printElemT]
    exact Harmless.bind (harmless_attribs hreg attrib n d m) fun as k =>
      Harmless.bind (harmless_alloc hreg k _ _) fun p k => trivial
  | .mk tag attrib text tail (c :: cs), n, indent, space, d, m => by
    rw [printElemT]
    exact Harmless.bind (harmless_attribs hreg attrib n d m) fun as k =>
      Harmless.bind (harmless_alloc hreg k _ _) fun p k =>
        Harmless.bind (harmless_children hreg (c :: cs) k _ _ _) fun b k => trivial
theorem harmless_children (hreg : ∀ u ∈ us, (nsGet base u).isSome = true) : (cs : List PElem) → ∀ n indent d m,
    Harmless us base n (printChildrenT indent d m cs)
  | [], _, _, _, _ => by rw [printChildrenT]; trivial
  | c :: cs, n, indent, d, m => by
    rw [printChildrenT]
    exact Harmless.bind (harmless_elem hreg c n _ _ _ _) fun r k =>
      Harmless.bind (harmless_children hreg cs k _ _ _) fun r k => trivial
end

theorem alloc_known {uri p : Chars} {s : PrintState} (h : nsGet s.nsMap uri = some p) : allocNsPrefix uri s = .ok p s := by
  simp only [allocNsPrefix, bind, EStateM.bind, get, getThe, MonadStateOf.get, EStateM.get, h]
  rfl

/-- For namespaces that have prefixes, threads print the same as one alone. -/
theorem yields_attribs (hreg : ∀ u ∈ us, (nsGet base u).isSome = true) : (as : List (Chars × Chars)) →
    attribNamespaces as ⊆ us → ∀ d, ∃ r, (∀ n m, Yields us base (.ok (r, m)) n (printAttribsT as d m)) ∧
      ∀ s : PrintState, s.nsMap = base → printAttribs as d s = .ok r s
  | [], _, d => ⟨([], d), fun _ _ => rfl, fun s _ => rfl⟩
  | (a, v) :: as, h, d => by
    by_cases ha : qnGetNs a = []
    · have h' : attribNamespaces as ⊆ us := by
        intro u hu; apply h; simp only [attribNamespaces, List.map_cons] at hu ⊢
        rw [List.filter_cons]; simp only [ha]; simpa using hu
      obtain ⟨r, h1, h2⟩ := yields_attribs hreg as h' d
      refine ⟨(printAttr a v ++ r.1, r.2), fun n m => ?_, fun s hs => ?_⟩
      · rw [printAttribsT, if_pos ha]
        exact Yields.bind (h1 n m) fun _ => rfl
      · rw [printAttribs, if_pos ha]
        simp only [bind, EStateM.bind, h2 s hs]
        rfl
    · have h' : attribNamespaces as ⊆ us := by
        intro u hu; apply h; simp only [attribNamespaces, List.map_cons] at hu ⊢
        rw [List.filter_cons]; simp only [ne_eq, ha, not_false_eq_true, decide_true, if_true]; exact List.mem_cons_of_mem _ hu
      have hu : qnGetNs a ∈ us := by
        apply h; simp only [attribNamespaces, List.map_cons]
        rw [List.filter_cons]; simp [ha]
      obtain ⟨p, hp⟩ := Option.isSome_iff_exists.1 (hreg _ hu)
      obtain ⟨r, h1, h2⟩ := yields_attribs hreg as h' (declare d (qnGetNs a))
      refine ⟨(nsDeclaration d p (qnGetNs a) ++ printAttr (qualified p (qnLocalPart a)) v ++ r.1, r.2), fun n m => ?_, fun s hs => ?_⟩
      · rw [printAttribsT, if_neg ha]
        exact Yields.bind (yields_alloc n m hu hp) fun k => Yields.bind (h1 k m) fun _ => rfl
      · rw [printAttribs, if_neg ha]
        simp only [bind, EStateM.bind, alloc_known (show nsGet s.nsMap _ = some p by rw [hs]; exact hp), h2 s hs]
        rfl

mutual
theorem yields_elem (hreg : ∀ u ∈ us, (nsGet base u).isSome = true) : (e : PElem) → namespaces e ⊆ us → ∀ indent space d,
    ∃ r, (∀ n m, Yields us base (.ok (r, m)) n (printElemT indent space d m e)) ∧
      ∀ s : PrintState, s.nsMap = base → printElem indent space d e s = .ok r s
  | .mk tag attrib text tail [], h, indent, space, d => by
    rw [namespaces] at h
    obtain ⟨as, h1, h2⟩ := yields_attribs hreg attrib (fun u hu => h (List.mem_append_left _ hu)) d
    have hu : qnGetNs tag ∈ us := h (List.mem_append_right _ (List.mem_cons_self ..))
    obtain ⟨p, hp⟩ := Option.isSome_iff_exists.1 (hreg _ hu)
    refine ⟨(indent ++ '<' :: qualified p (qnLocalPart tag) ++ nsDeclaration as.2 p (qnGetNs tag) ++ as.1 ++ '>' :: estrip text) ++ '<' :: '/' :: qualified p (qnLocalPart tag) ++ ['>'], fun n m => ?_, fun s hs => ?_⟩
    rotate_left
    · rw [printElem]
      simp only [bind, EStateM.bind, alloc_known (show nsGet s.nsMap _ = some p by rw [hs]; exact hp), h2 s hs]
      rfl
    · rw [printElemT]
      exact Yields.bind (h1 n m) fun k => Yields.bind (yields_alloc k m hu hp) fun _ => rfl
  | .mk tag attrib text tail (c :: cs), h, indent, space, d => by
    rw [namespaces] at h
    obtain ⟨as, h1, h2⟩ := yields_attribs hreg attrib (fun u hu => h (List.mem_append_left _ hu)) d
    have hu : qnGetNs tag ∈ us := h (List.mem_append_right _ (List.mem_cons_self ..))
    obtain ⟨p, hp⟩ := Option.isSome_iff_exists.1 (hreg _ hu)
    obtain ⟨b, h3, h4⟩ := yields_children hreg (c :: cs) (fun u hu => h (List.mem_append_right _ (List.mem_cons_of_mem _ hu)))
      (indent ++ space) (declare as.2 (qnGetNs tag))
    refine ⟨(indent ++ '<' :: qualified p (qnLocalPart tag) ++ nsDeclaration as.2 p (qnGetNs tag) ++ as.1 ++ '>' :: estrip text) ++ b ++ '\n' :: indent ++ estrip ((c :: cs).getLast (List.cons_ne_nil c cs)).tail ++
      '<' :: '/' :: qualified p (qnLocalPart tag) ++ ['>'], fun n m => ?_, fun s hs => ?_⟩
    rotate_left
    · rw [printElem]
      simp only [bind, EStateM.bind, alloc_known (show nsGet s.nsMap _ = some p by rw [hs]; exact hp), h2 s hs, h4 s hs]
      rfl
    · rw [printElemT]
      exact Yields.bind (h1 n m) fun k => Yields.bind (yields_alloc k m hu hp) fun k => Yields.bind (h3 k m) fun _ => rfl
theorem yields_children (hreg : ∀ u ∈ us, (nsGet base u).isSome = true) : (cs : List PElem) → namespacesAll cs ⊆ us →
    ∀ indent d, ∃ r, (∀ n m, Yields us base (.ok (r, m)) n (printChildrenT indent d m cs)) ∧
      ∀ s : PrintState, s.nsMap = base → printChildren indent d cs s = .ok r s
  | [], _, _, _ => ⟨[], fun _ _ => by rw [printChildrenT]; rfl, fun s _ => by rw [printChildren]; rfl⟩
  | c :: cs, h, indent, d => by
    rw [namespacesAll] at h
    obtain ⟨r1, h1, h2⟩ := yields_elem hreg c (fun u hu => h (List.mem_append_left _ hu)) indent fourSpaces d
    obtain ⟨r2, h3, h4⟩ := yields_children hreg cs (fun u hu => h (List.mem_append_right _ hu)) indent d
    refine ⟨'\n' :: r1 ++ r2, fun n m => ?_, fun s hs => ?_⟩
    · rw [printChildrenT]
      exact Yields.bind (h1 n m) fun k => Yields.bind (h3 k m) fun _ => rfl
    · rw [printChildren]
      simp only [bind, EStateM.bind, h2 s hs, h4 s hs]
      rfl
end

/-- The end of it. -/
private theorem nsStable_restore {α} {Q : Except Exc α → Nat → Prop} (n : Nat) {b : List (Chars × Chars)} (hb : Agrees us base b)
    (k : Unit → PrintThread α) (h : ∀ m, NsStable us base Q m (k ())) :
    NsStable us base Q n (Prog.write (NsShared.restore b) >>= k) :=
  fun s hs _ => ⟨hs.restore hb, by simp [NsShared.restore], h _⟩

theorem harmless_print (hreg : ∀ u ∈ us, (nsGet base u).isSome = true) (e : PElem) (n : Nat) :
    Harmless us base n (prettyPrintT e) := by
  refine nsStable_look (fun d => d.map Prod.snd) n _ fun d k _ => ?_
  refine nsStable_look id k _ fun b j hb => ?_
  exact Harmless.bind (harmless_elem hreg e j ..) fun r i => nsStable_restore i hb _ fun _ => trivial

theorem yields_print (hreg : ∀ u ∈ us, (nsGet base u).isSome = true) (e : PElem) (he : namespaces e ⊆ us) :
    ∃ out, (∀ n, Yields us base (.ok out) n (prettyPrintT e)) ∧ prettyPrint base e [] fourSpaces = (.ok out, base) := by
  obtain ⟨r, h1, h2⟩ := yields_elem hreg e he [] fourSpaces []
  refine ⟨r, fun n => ?_, ?_⟩
  · refine nsStable_look (fun d => d.map Prod.snd) n _ fun d k _ => ?_
    refine nsStable_look id k _ fun b j hb => ?_
    exact Yields.bind (h1 j _) fun i => nsStable_restore i hb _ fun _ => rfl
  · rw [prettyPrint, EStateM.run, h2 _ rfl]

theorem nsStable_elements {α} {Q : Except Exc α → Nat → Prop} {uri p : Chars} (hu : uri ∈ us → nsGet base uri = some p)
    (k : Unit → PrintThread α) (h : ∀ m, NsStable us base Q m (k ())) : (c n : Nat) →
    NsStable us base Q n (makeElementsT uri p c >>= k)
  | 0, n => h n
  | c + 1, n => by
    have := nsStable_assign n uri p hu (fun _ => makeElementsT uri p c >>= k) fun m => nsStable_elements hu k h c m
    exact this

theorem harmless_reader (h : [] ∉ us) (n : Nat) : Harmless us base n readerT := by
  refine nsStable_look id n _ fun b k hb => ?_
  refine nsStable_assign k [] policyNsChars (fun h' => absurd h' h) _ fun m => ?_
  exact nsStable_restore m hb (fun _ => pure ()) fun _ => trivial

/-! ## One thread alone -/

private theorem runAlone_bindP {α β} (t : PrintThread α) (f : α → PrintThread β) (s : NsShared) :
    (t >>= f).runAlone s = match t.runAlone s with
      | (.ok a, s') => (f a).runAlone s'
      | (.error e, s') => (.error e, s') := by
  show (Prog.bind f t).runAlone s = _
  induction t generalizing s with
  | done z => cases z <;> rfl
  | act g k ih => exact ih s (g s)

/-- The registry with other contents. -/
def NsShared.put (s : NsShared) (m : List (Chars × Chars)) : NsShared := { s with heap := s.heap.set s.current m }

private theorem put_now {s : NsShared} (h : s.current < s.heap.length) : s.put s.now = s := by
  simp [NsShared.put, NsShared.now, NsShared.dict, h]

private theorem now_put {s : NsShared} (h : s.current < s.heap.length) (m) : (s.put m).now = m := by
  simp [NsShared.put, NsShared.now, NsShared.dict, h]

private theorem put_put (s : NsShared) (m m') : (s.put m).put m' = s.put m' := by
  simp [NsShared.put]

private theorem put_valid {s : NsShared} (h : s.current < s.heap.length) (m) : (s.put m).current < (s.put m).heap.length := by
  simpa [NsShared.put] using h

/-- A thread does, alone, what the function does. -/
def Alone {α} (t : List Chars → PrintThread (α × List Chars)) (f : PrintM α) : Prop :=
  ∀ (s : NsShared) (m : List Chars), s.current < s.heap.length →
    (t m).runAlone s = match f ⟨s.now, m⟩ with
      | .ok a st => (.ok (a, st.mapped), s.put st.nsMap)
      | .error .keyError st => (.error .keyError, s.put st.nsMap)

private theorem Alone.pure {α} (a : α) : Alone (fun m => pure (a, m)) (pure a) := by
  intro s m h
  show (_, s) = (_, s.put s.now)
  rw [put_now h]

private theorem Alone.bind {α β} {t : List Chars → PrintThread (α × List Chars)} {f : PrintM α}
    {t' : α → List Chars → PrintThread (β × List Chars)} {f' : α → PrintM β} (h : Alone t f) (h' : ∀ a, Alone (t' a) (f' a)) :
    Alone (fun m => t m >>= fun r => t' r.1 r.2) (f >>= f') := by
  intro s m hs
  rw [runAlone_bindP, h s m hs]
  simp only [Bind.bind, EStateM.bind]
  cases hf : f ⟨s.now, m⟩ with
  | error e st => cases e; rfl
  | ok a st =>
    simp only
    rw [h' a _ _ (put_valid hs _), now_put hs]
    cases f' a ⟨st.nsMap, st.mapped⟩ with
    | ok b st' => simp only [put_put]
    | error e st' => cases e; simp only [put_put]

private theorem alone_alloc (uri : Chars) : Alone (allocNsPrefixT uri) (allocNsPrefix uri) := by
  intro s m hs
  have h1 : (allocNsPrefixT uri m).runAlone s = ((match nsGet s.now uri with
    | some p => pure (p, m)
    | none =>
      match ((List.range 256).map nsName).find? (fun p => !m.contains p) with
      | some p => (do
        let r ← loadNsMap
        Prog.write (NsShared.assign r uri p)
        checkNsPrefixT uri p (m ++ [p]))
      | none => checkNsPrefixT uri (nsName 255) m) : PrintThread (Chars × List Chars)).runAlone s := rfl
  have h2 : ∀ (s : NsShared) p (m : List Chars), (checkNsPrefixT uri p m).runAlone s =
      if (nsGet s.now uri).isSome then (.ok (p, m), s) else (.error .keyError, s) := by
    intro s p m
    have : (checkNsPrefixT uri p m).runAlone s =
      ((if (nsGet s.now uri).isSome then pure (p, m) else Prog.throw .keyError) : PrintThread (Chars × List Chars)).runAlone s := rfl
    rw [this]
    split <;> rfl
  rw [h1]
  cases hg : nsGet s.now uri with
  | some p =>
    rw [alloc_known (show nsGet (PrintState.mk s.now m).nsMap uri = some p from hg)]
    show (_, s) = (_, s.put s.now)
    rw [put_now hs]
  | none =>
    simp only [allocNsPrefix, Bind.bind, EStateM.bind, get, getThe, MonadStateOf.get, EStateM.get, hg]
    cases ((List.range 256).map nsName).find? (fun p => !m.contains p) with
    | none =>
      simp only
      rw [h2, hg]
      show (_, s) = (_, s.put s.now)
      rw [put_now hs]
    | some p =>
      have h3 : (Prog.bind (fun r => Prog.bind (fun _ => checkNsPrefixT uri p (m ++ [p])) (Prog.write (NsShared.assign r uri p))) loadNsMap).runAlone s =
          (checkNsPrefixT uri p (m ++ [p])).runAlone (s.put (dictSet s.now uri p)) := rfl
      show (Prog.bind (fun r => Prog.bind (fun _ => checkNsPrefixT uri p (m ++ [p])) (Prog.write (NsShared.assign r uri p))) loadNsMap).runAlone s = _
      rw [h3, h2, now_put hs, nsGet_dictSet, if_pos rfl, dictSet_new p hg]
      rfl

private theorem alone_attribs : (as : List (Chars × Chars)) → ∀ d, Alone (printAttribsT as d) (printAttribs as d)
  | [], d => Alone.pure _
  | (a, v) :: as, d => by
    have h : printAttribsT ((a, v) :: as) d = fun m => if qnGetNs a = [] then (do
        let r ← printAttribsT as d m
        pure ((printAttr a v ++ r.1.1, r.1.2), r.2)) else (do
        let p ← allocNsPrefixT (qnGetNs a) m
        let r ← printAttribsT as (declare d (qnGetNs a)) p.2
        pure ((nsDeclaration d p.1 (qnGetNs a) ++ printAttr (qualified p.1 (qnLocalPart a)) v ++ r.1.1, r.1.2), r.2)) := rfl
    rw [h, printAttribs]
    by_cases ha : qnGetNs a = []
    · simp only [ha, if_true]
      exact Alone.bind (alone_attribs as d) fun r => Alone.pure (printAttr a v ++ r.1, r.2)
    · simp only [ha, if_false]
      exact Alone.bind (alone_alloc (qnGetNs a)) fun p => Alone.bind (alone_attribs as (declare d (qnGetNs a))) fun r =>
        Alone.pure (nsDeclaration d p (qnGetNs a) ++ printAttr (qualified p (qnLocalPart a)) v ++ r.1, r.2)

mutual
private theorem alone_elem : (e : PElem) → ∀ indent space d, Alone (fun m => printElemT indent space d m e) (printElem indent space d e)
  | .mk tag attrib text tail [], indent, space, d => by
    simp only [printElemT, printElem]
    exact Alone.bind (alone_attribs attrib d) fun as => Alone.bind (alone_alloc (qnGetNs tag)) fun p => Alone.pure ((indent ++ '<' :: qualified p (qnLocalPart tag) ++ nsDeclaration as.2 p (qnGetNs tag) ++ as.1 ++ '>' :: estrip text) ++ '<' :: '/' :: qualified p (qnLocalPart tag) ++ ['>'])
  | .mk tag attrib text tail (c :: cs), indent, space, d => by
    simp only [printElemT, printElem]
    exact Alone.bind (alone_attribs attrib d) fun as => Alone.bind (alone_alloc (qnGetNs tag)) fun p =>
      Alone.bind (alone_children (c :: cs) (indent ++ space) (declare as.2 (qnGetNs tag))) fun b => Alone.pure ((indent ++ '<' :: qualified p (qnLocalPart tag) ++ nsDeclaration as.2 p (qnGetNs tag) ++ as.1 ++ '>' :: estrip text) ++ b ++ '\n' :: indent ++ estrip ((c :: cs).getLast (List.cons_ne_nil c cs)).tail ++
      '<' :: '/' :: qualified p (qnLocalPart tag) ++ ['>'])
private theorem alone_children : (cs : List PElem) → ∀ indent d, Alone (fun m => printChildrenT indent d m cs) (printChildren indent d cs)
  | [], indent, d => by
    simp only [printChildrenT, printChildren]
    exact Alone.pure _
  | c :: cs, indent, d => by
    simp only [printChildrenT, printChildren]
    exact Alone.bind (alone_elem c indent fourSpaces d) fun r => Alone.bind (alone_children cs indent d) fun r' =>
      Alone.pure ('\n' :: r ++ r')
end

/-- Without interruption `prettyPrintT` is `prettyPrint`. -/
theorem print_alone (e : PElem) (s : NsShared) (hs : s.current < s.heap.length) :
    (match (prettyPrint s.now e [] fourSpaces).1 with
      | .ok out => ((prettyPrintT e).runAlone s).1 = .ok out
      | .error .keyError => ((prettyPrintT e).runAlone s).1 = .error .keyError) ∧
    ((prettyPrintT e).runAlone s).2.now = (prettyPrint s.now e [] fourSpaces).2 := by
  have h : (prettyPrintT e).runAlone s =
      (Prog.bind (fun out => Prog.bind (fun _ => pure out.1) (Prog.write (NsShared.restore s.now)))
        (printElemT [] fourSpaces [] (s.now.map Prod.snd) e)).runAlone s := rfl
  have h2 := runAlone_bindP (printElemT [] fourSpaces [] (s.now.map Prod.snd) e)
    (fun out => Prog.bind (fun _ => (pure out.1 : PrintThread Chars)) (Prog.write (NsShared.restore s.now))) s
  rw [h]
  rw [show (Prog.bind (fun out => Prog.bind (fun _ => pure out.1) (Prog.write (NsShared.restore s.now)))
        (printElemT [] fourSpaces [] (s.now.map Prod.snd) e)).runAlone s = _ from h2,
    alone_elem e [] fourSpaces [] s _ hs, prettyPrint, EStateM.run]
  cases printElem [] fourSpaces [] e ⟨s.now, s.now.map Prod.snd⟩ with
  | ok a st =>
    refine ⟨rfl, ?_⟩
    show ((s.put st.nsMap).restore s.now).now = s.now
    simp [NsShared.restore, NsShared.now, NsShared.dict]
  | error e st =>
    cases e
    exact ⟨rfl, now_put hs _⟩

end Xacml
