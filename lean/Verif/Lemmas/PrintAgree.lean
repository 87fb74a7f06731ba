import Verif.Lemmas.PrintFilter

/-!
# What is printed depends only on the prefixes of the tree's namespaces and on the free prefixes
-/
namespace Xacml
open Spec

/-- Two states that are the same for a tree with these namespaces. -/
def Agree (us : List Chars) (s t : PrintState) : Prop :=
  (∀ u ∈ us, s.nsMap.lookup u = t.nsMap.lookup u) ∧ ∀ i < 256, (nsName i ∈ s.mapped ↔ nsName i ∈ t.mapped)

/-- The same result, and states that agree. -/
def AgreeR (us : List Chars) {α : Type} : EStateM.Result PrintExc PrintState α → EStateM.Result PrintExc PrintState α → Prop
  | .ok a s, .ok b t => a = b ∧ Agree us s t
  | .error x s, .error y t => x = y ∧ Agree us s t
  | _, _ => False

/-- A computation that respects agreement. -/
def Respects (us : List Chars) {α : Type} (x : PrintM α) : Prop := ∀ s t, Agree us s t → AgreeR us (x s) (x t)

theorem respects_pure (us : List Chars) {α : Type} (a : α) : Respects us (pure a : PrintM α) := fun _ _ h => ⟨rfl, h⟩

theorem respects_bind {us : List Chars} {α β : Type} {x : PrintM α} {f : α → PrintM β} (hx : Respects us x)
    (hf : ∀ a, Respects us (f a)) : Respects us (x >>= f) := by
  intro s t h
  have h1 := hx s t h
  simp only [bind, EStateM.bind]
  cases hs : x s with
  | ok a s' =>
    cases ht : x t with
    | ok b t' =>
      rw [hs, ht] at h1
      obtain ⟨rfl, h2⟩ := h1
      exact hf _ _ _ h2
    | error y t' => rw [hs, ht] at h1; cases h1
  | error e s' =>
    cases ht : x t with
    | ok b t' => rw [hs, ht] at h1; cases h1
    | error y t' => rw [hs, ht] at h1; exact h1

private theorem find_agree {us : List Chars} {s t : PrintState} (h : Agree us s t) :
    ((List.range 256).map nsName).find? (fun p => !s.mapped.contains p) =
      ((List.range 256).map nsName).find? (fun p => !t.mapped.contains p) := by
  rw [← List.head?_filter, ← List.head?_filter]
  refine congrArg List.head? (List.filter_congr ?_)
  intro p hp
  obtain ⟨i, hi, rfl⟩ := List.mem_map.1 hp
  have := h.2 i (List.mem_range.1 hi)
  rw [Bool.eq_iff_iff]
  simp [this]

private theorem lookup_append_one (m : List (Chars × Chars)) (u v p : Chars) :
    (m ++ [(u, p)]).lookup v = (m.lookup v).or (if v = u then some p else none) := by
  rw [List.lookup_append, List.lookup_cons]
  by_cases h : v = u
  · simp [h]
  · have : (v == u) = false := by simpa using h
    simp [h, this]

theorem respects_alloc {us : List Chars} {u : Chars} (hu : u ∈ us) : Respects us (allocNsPrefix u) := by
  intro s t h
  simp only [allocNsPrefix, bind, EStateM.bind, get, getThe, MonadStateOf.get, EStateM.get]
  have hl : nsGet s.nsMap u = nsGet t.nsMap u := h.1 u hu
  rw [hl]
  cases hg : nsGet t.nsMap u with
  | some q => exact ⟨rfl, h⟩
  | none =>
    simp only
    rw [find_agree h]
    cases hf : ((List.range 256).map nsName).find? (fun p => !t.mapped.contains p) with
    | none => exact ⟨rfl, h⟩
    | some q =>
      refine ⟨rfl, fun v hv => ?_, fun i hi => ?_⟩
      · simp only [lookup_append_one, h.1 v hv]
      · simp [h.2 i hi]

theorem respects_attribs {us : List Chars} (as : List (Chars × Chars)) :
    attribNamespaces as ⊆ us → ∀ d, Respects us (printAttribs as d) := by
  induction as with
  | nil => intro _ d; rw [printAttribs]; exact respects_pure _ _
  | cons a as ih =>
    rcases a with ⟨k, v⟩
    intro h d
    rw [printAttribs]
    by_cases hk : qnGetNs k = []
    · have h' : attribNamespaces as ⊆ us := by
        intro u hu; exact h (by simpa [attribNamespaces, hk] using hu)
      rw [if_pos hk]
      exact respects_bind (ih h' _) fun _ => respects_pure _ _
    · have h' : attribNamespaces as ⊆ us := by
        intro u hu; refine h ?_
        simp only [attribNamespaces, List.map_cons] at hu ⊢
        rw [List.filter_cons_of_pos (by simpa using hk)]
        exact List.mem_cons_of_mem _ hu
      have hku : qnGetNs k ∈ us := by
        refine h ?_
        simp only [attribNamespaces, List.map_cons]
        rw [List.filter_cons_of_pos (by simpa using hk)]
        exact List.mem_cons_self ..
      rw [if_neg hk]
      exact respects_bind (respects_alloc hku) fun _ => respects_bind (ih h' _) fun _ => respects_pure _ _

mutual
theorem respects_elem {us : List Chars} : (e : PElem) → namespaces e ⊆ us → ∀ indent space d, Respects us (printElem indent space d e)
  | .mk tag attrib text tail [], h, indent, space, d => by
    simp only [namespaces] at h
    have h1 : attribNamespaces attrib ⊆ us := fun u hu => h (List.mem_append_left _ hu)
    have h2 : qnGetNs tag ∈ us := h (List.mem_append_right _ (List.mem_cons_self ..))
    simp only [printElem]
    exact respects_bind (respects_attribs _ h1 _) fun _ => respects_bind (respects_alloc h2) fun _ => respects_pure _ _
  | .mk tag attrib text tail (c :: cs), h, indent, space, d => by
    rw [namespaces] at h
    have h1 : attribNamespaces attrib ⊆ us := fun u hu => h (List.mem_append_left _ hu)
    have h2 : qnGetNs tag ∈ us := h (List.mem_append_right _ (List.mem_cons_self ..))
    have h3 : namespacesAll (c :: cs) ⊆ us := fun u hu => h (List.mem_append_right _ (List.mem_cons_of_mem _ hu))
    rw [printElem]
    exact respects_bind (respects_attribs _ h1 _) fun _ => respects_bind (respects_alloc h2) fun _ =>
      respects_bind (respects_children (c :: cs) h3 _ _) fun _ => respects_pure _ _
theorem respects_children {us : List Chars} :
    (cs : List PElem) → namespacesAll cs ⊆ us → ∀ indent d, Respects us (printChildren indent d cs)
  | [], _, indent, d => by rw [printChildren]; exact respects_pure _ _
  | c :: cs, h, indent, d => by
    rw [namespacesAll] at h
    rw [printChildren]
    exact respects_bind (respects_elem c (fun u hu => h (List.mem_append_left _ hu)) _ _ _) fun _ =>
      respects_bind (respects_children cs (fun u hu => h (List.mem_append_right _ hu)) _ _) fun _ => respects_pure _ _
end

end Xacml
