import Verif.Lemmas.PrettyPrint

/-!
# When the pretty printer runs out of prefixes
-/
namespace Xacml
open Spec

/-- The effect without the text. -/
def erased {α : Type} : EStateM.Result PrintExc PrintState α → EStateM.Result PrintExc PrintState Unit
  | .ok _ s => .ok () s
  | .error e s => .error e s

/-- All prefixes, one after the other. -/
def allocAll : List Chars → PrintM Unit
  | [] => pure ()
  | u :: us => do
    let _ ← allocNsPrefix u
    allocAll us

theorem erased_bind {α β : Type} {x : PrintM α} {f : α → PrintM β} {y z : PrintM Unit} (hx : ∀ s, erased (x s) = erased (y s))
    (hf : ∀ a s, erased (f a s) = erased (z s)) (s : PrintState) : erased ((x >>= f) s) = erased ((y >>= fun _ => z) s) := by
  have := hx s
  simp only [bind, EStateM.bind]
  cases h1 : x s with
  | ok a s1 =>
    cases h2 : y s with
    | ok b s2 => rw [h1, h2] at this; cases this; exact hf a s1
    | error e s2 => rw [h1, h2] at this; cases this
  | error e s1 =>
    cases h2 : y s with
    | ok b s2 => rw [h1, h2] at this; cases this
    | error e s2 => rw [h1, h2] at this; cases this; rfl

theorem erased_pure {α : Type} (a : α) (s : PrintState) : erased ((pure a : PrintM α) s) = erased ((pure () : PrintM Unit) s) := rfl

theorem allocAll_append (us vs : List Chars) (s : PrintState) :
    allocAll (us ++ vs) s = (allocAll us >>= fun _ => allocAll vs) s := by
  induction us generalizing s with
  | nil => rfl
  | cons u us ih =>
    simp only [List.cons_append, allocAll, bind, EStateM.bind]
    cases allocNsPrefix u s with
    | ok p s1 => simp only; rw [ih]; rfl
    | error e s1 => rfl

theorem erased_last {α β : Type} {x : PrintM α} {f : α → PrintM β} {y : PrintM Unit} (hx : ∀ s, erased (x s) = erased (y s))
    (hf : ∀ a s, erased (f a s) = .ok () s) (s : PrintState) : erased ((x >>= f) s) = erased (y s) := by
  have := hx s
  simp only [bind, EStateM.bind]
  cases h1 : x s with
  | ok a s1 => rw [h1] at this; simp only [hf a s1]; exact this
  | error e s1 => rw [h1] at this; exact this

private theorem alloc_unit (u : Chars) (s : PrintState) : erased (allocNsPrefix u s) = erased (allocAll [u] s) := by
  simp only [allocAll, bind, EStateM.bind]
  cases allocNsPrefix u s <;> rfl

theorem attribs_alloc (as : List (Chars × Chars)) (d : List Chars) (s : PrintState) :
    erased (printAttribs as d s) = erased (allocAll (attribNamespaces as) s) := by
  induction as generalizing d s with
  | nil => rfl
  | cons a as ih =>
    rcases a with ⟨k, v⟩
    rw [printAttribs]
    by_cases h : qnGetNs k = []
    · rw [if_pos h]
      have : attribNamespaces ((k, v) :: as) = attribNamespaces as := by simp [attribNamespaces, h]
      rw [this]
      exact erased_last (ih d) (fun a s => rfl) s
    · rw [if_neg h]
      have : attribNamespaces ((k, v) :: as) = qnGetNs k :: attribNamespaces as := by simp [attribNamespaces, h]
      rw [this, ← List.singleton_append, allocAll_append]
      refine erased_bind (alloc_unit _) ?_ s
      intro p s1
      exact erased_last (ih _) (fun a s => rfl) s1

mutual
theorem elem_alloc : (e : PElem) → ∀ (indent space : Chars) (d : List Chars) (s : PrintState),
    erased (printElem indent space d e s) = erased (allocAll (namespaces e) s)
  | .mk tag attrib text tail [], indent, space, d, s => by
    have hn : namespaces (.mk tag attrib text tail []) = attribNamespaces attrib ++ [qnGetNs tag] := by
      simp [namespaces, namespacesAll]
    rw [hn, allocAll_append]
    simp only [printElem]
    refine erased_bind (attribs_alloc attrib d) ?_ s
    rintro ⟨sa, d1⟩ s1
    exact erased_last (alloc_unit _) (fun p s => rfl) s1
  | .mk tag attrib text tail (c :: cs), indent, space, d, s => by
    have hn : namespaces (.mk tag attrib text tail (c :: cs)) =
        attribNamespaces attrib ++ ([qnGetNs tag] ++ namespacesAll (c :: cs)) := by
      simp [namespaces]
    rw [hn, allocAll_append]
    simp only [printElem]
    refine erased_bind (attribs_alloc attrib d) ?_ s
    rintro ⟨sa, d1⟩ s1
    rw [allocAll_append]
    refine erased_bind (alloc_unit _) ?_ s1
    intro p s2
    exact erased_last (children_alloc (c :: cs) _ _) (fun b s => rfl) s2
theorem children_alloc : (cs : List PElem) → ∀ (indent : Chars) (d : List Chars) (s : PrintState),
    erased (printChildren indent d cs s) = erased (allocAll (namespacesAll cs) s)
  | [], indent, d, s => by simp only [printChildren, namespacesAll, allocAll]; rfl
  | c :: cs, indent, d, s => by
    simp only [printChildren, namespacesAll]
    rw [allocAll_append]
    refine erased_bind (elem_alloc c indent fourSpaces d) ?_ s
    intro r s1
    exact erased_last (children_alloc cs indent d) (fun b s => rfl) s1
end

/-- The names `ns0` to `ns255` are different. -/
theorem nsNames_nodup : ((List.range 256).map nsName).Nodup := by decide +kernel

/-- Those not taken. -/
def freeIn (mapped : List Chars) : List Chars := ((List.range 256).map nsName).filter fun p => !mapped.contains p

theorem freeIn_cons {mapped : List Chars} {p : Chars} : freeIn (mapped ++ [p]) = (freeIn mapped).erase p := by
  rw [freeIn, freeIn, List.Nodup.erase_eq_filter (List.Pairwise.filter _ nsNames_nodup), List.filter_filter]
  congr 1
  funext q
  by_cases h1 : q = p
  · subst h1; simp
  · by_cases h2 : q ∈ mapped
    · simp [h1, h2]
    · simp [h1, h2]

/-- One allocation. -/
theorem alloc_cases (u : Chars) (s : PrintState) :
    (u ∈ s.nsMap.map Prod.fst ∧ erased (allocNsPrefix u s) = .ok () s) ∨
    (u ∉ s.nsMap.map Prod.fst ∧ freeIn s.mapped = [] ∧ erased (allocNsPrefix u s) = .error .keyError s) ∨
    (u ∉ s.nsMap.map Prod.fst ∧ ∃ p ∈ freeIn s.mapped,
      erased (allocNsPrefix u s) = .ok () ⟨s.nsMap ++ [(u, p)], s.mapped ++ [p]⟩) := by
  simp only [allocNsPrefix, bind, EStateM.bind, get, getThe, MonadStateOf.get, EStateM.get]
  cases hg : nsGet s.nsMap u with
  | some q => exact .inl ⟨List.mem_map.2 ⟨_, lookup_mem hg, rfl⟩, rfl⟩
  | none =>
    refine .inr ?_
    have hnk := lookup_none hg
    simp only
    rw [← List.head?_filter]
    rw [show ((List.range 256).map nsName).filter (fun p => !s.mapped.contains p) = freeIn s.mapped from rfl]
    cases hf : freeIn s.mapped with
    | nil => exact .inl ⟨hnk, rfl, rfl⟩
    | cons p ps => exact .inr ⟨hnk, p, List.mem_cons_self .., rfl⟩

theorem allocAll_cases (us : List Chars) (s : PrintState) :
    (∃ new : List (Chars × Chars), new.length ≤ (freeIn s.mapped).length ∧
      (∀ u ∈ us, u ∈ s.nsMap.map Prod.fst ∨ u ∈ new.map Prod.fst) ∧
      erased (allocAll us s) = .ok () ⟨s.nsMap ++ new, s.mapped ++ new.map Prod.snd⟩) ∨
    (∃ new : List (Chars × Chars), new.length = (freeIn s.mapped).length ∧
      freeIn (s.mapped ++ new.map Prod.snd) = [] ∧
      (∀ l : List Chars, l.length ≤ (freeIn s.mapped).length → ∃ u ∈ us, u ∉ s.nsMap.map Prod.fst ∧ u ∉ l) ∧
      erased (allocAll us s) = .error .keyError ⟨s.nsMap ++ new, s.mapped ++ new.map Prod.snd⟩) := by
  induction us generalizing s with
  | nil => exact .inl ⟨[], by simp, by simp, by simp [allocAll, pure, EStateM.pure, erased]⟩
  | cons u us ih =>
    have hstep : ∀ {s1 : PrintState}, erased (allocNsPrefix u s) = .ok () s1 →
        erased (allocAll (u :: us) s) = erased (allocAll us s1) := by
      intro s1 h
      simp only [allocAll, bind, EStateM.bind]
      cases hx : allocNsPrefix u s with
      | ok p s2 => rw [hx] at h; cases h; rfl
      | error e s2 => rw [hx] at h; cases h
    rcases alloc_cases u s with ⟨hu, h⟩ | ⟨hu, hfree, h⟩ | ⟨hu, p, hp, h⟩
    · rw [hstep h]
      rcases ih s with ⟨new, h1, h2, h3⟩ | ⟨new, h1, h2, h4, h5⟩
      · refine .inl ⟨new, h1, fun v hv => ?_, h3⟩
        rcases List.mem_cons.1 hv with rfl | hv
        · exact .inl hu
        · exact h2 v hv
      · refine .inr ⟨new, h1, h2, fun l hl => ?_, h5⟩
        obtain ⟨v, hv, h⟩ := h4 l hl
        exact ⟨v, List.mem_cons_of_mem _ hv, h⟩
    · refine .inr ⟨[], by rw [hfree]; rfl, by simpa using hfree, fun l hl => ?_, ?_⟩
      · rw [hfree] at hl
        cases l with
        | nil => exact ⟨u, List.mem_cons_self .., hu, by simp⟩
        | cons a l => simp at hl
      · simp only [allocAll, bind, EStateM.bind]
        cases hx : allocNsPrefix u s with
        | ok p s2 => rw [hx] at h; cases h
        | error e s2 => rw [hx] at h; cases h; simp [erased]
    · rw [hstep h]
      have hlen : (freeIn (s.mapped ++ [p])).length + 1 = (freeIn s.mapped).length := by
        rw [freeIn_cons, List.length_erase_of_mem hp]
        have := List.length_pos_of_mem hp
        omega
      rcases ih ⟨s.nsMap ++ [(u, p)], s.mapped ++ [p]⟩ with ⟨new, h1, h2, h3⟩ | ⟨new, h1, h2, h4, h5⟩
      · refine .inl ⟨(u, p) :: new, ?_, fun v hv => ?_, ?_⟩
        · simp only [List.length_cons]; simp only at h1; omega
        · rcases List.mem_cons.1 hv with rfl | hv
          · exact .inr (by simp)
          · rcases h2 v hv with h | h
            · simp only [List.map_append, List.mem_append] at h
              rcases h with h | h
              · exact .inl h
              · refine .inr ?_
                simp at h; subst h; simp
            · exact .inr (by rw [List.map_cons]; exact List.mem_cons_of_mem _ h)
        · rw [h3]; simp
      · refine .inr ⟨(u, p) :: new, ?_, ?_, fun l hl => ?_, ?_⟩
        · simp only [List.length_cons]; simp only at h1; omega
        · simpa using h2
        · by_cases hul : u ∈ l
          · have hl' : (l.erase u).length ≤ (freeIn (s.mapped ++ [p])).length := by
              rw [List.length_erase_of_mem hul]; omega
            obtain ⟨v, hv, hv1, hv2⟩ := h4 _ hl'
            simp only [List.map_append, List.mem_append, not_or] at hv1
            refine ⟨v, List.mem_cons_of_mem _ hv, hv1.1, fun h => hv2 ?_⟩
            refine (List.mem_erase_of_ne ?_).2 h
            rintro rfl
            simp at hv1
          · exact ⟨u, List.mem_cons_self .., hu, hul⟩
        · rw [h5]; simp

end Xacml
