import Verif.Lemmas.PrettyPrint

/-!
# Entries of the registry for namespaces that are not in the tree do not matter, except that their
prefixes are taken
-/
namespace Xacml
open Spec

/-- The state with only the entries for some namespaces. -/
def PrintState.only (us : List Chars) (s : PrintState) : PrintState :=
  { s with nsMap := s.nsMap.filter fun x => us.contains x.1 }

private theorem lookup_filter {us : List Chars} {u : Chars} (hu : u ∈ us) (m : List (Chars × Chars)) :
    (m.filter fun x => us.contains x.1).lookup u = m.lookup u := by
  induction m with
  | nil => rfl
  | cons x m ih =>
    rcases x with ⟨k, p⟩
    rw [List.filter_cons, List.lookup_cons]
    by_cases hk : u = k
    · subst hk
      simp [hu]
    · have : (u == k) = false := by simpa using hk
      rw [this]
      split
      · rw [List.lookup_cons, this]; exact ih
      · exact ih

/-- A computation that gives the same with fewer entries. -/
def Local (us : List Chars) {α : Type} (x : PrintM α) : Prop :=
  ∀ s s' a, x s = .ok a s' → x (s.only us) = .ok a (s'.only us)

theorem local_pure (us : List Chars) {α : Type} (a : α) : Local us (pure a : PrintM α) := by
  intro s s' b h
  obtain ⟨rfl, rfl⟩ := ppure_ok.1 h
  exact ppure_ok.2 ⟨rfl, rfl⟩

theorem local_bind {us : List Chars} {α β : Type} {x : PrintM α} {f : α → PrintM β} (hx : Local us x) (hf : ∀ a, Local us (f a)) :
    Local us (x >>= f) := by
  intro s s' b h
  obtain ⟨a, s1, h1, h2⟩ := pbind_ok.1 h
  exact pbind_ok.2 ⟨a, _, hx _ _ _ h1, hf a _ _ _ h2⟩

theorem local_alloc {us : List Chars} {u : Chars} (hu : u ∈ us) : Local us (allocNsPrefix u) := by
  intro s s' p h
  simp only [allocNsPrefix, bind, EStateM.bind, get, getThe, MonadStateOf.get, EStateM.get] at h ⊢
  have hl : nsGet (s.only us).nsMap u = nsGet s.nsMap u := lookup_filter hu s.nsMap
  rw [hl]
  cases hg : nsGet s.nsMap u with
  | some q => rw [hg] at h; cases h; rfl
  | none =>
    rw [hg] at h
    simp only [show (s.only us).mapped = s.mapped from rfl] at h ⊢
    cases hf : ((List.range 256).map nsName).find? (fun p => !s.mapped.contains p) with
    | none => rw [hf] at h; cases h
    | some q =>
      rw [hf] at h
      cases h
      have : (s.nsMap ++ [(u, p)]).filter (fun x => us.contains x.1) = s.nsMap.filter (fun x => us.contains x.1) ++ [(u, p)] := by
        simp [List.filter_append, hu]
      simp only [PrintState.only, this]
      rfl

theorem local_attribs {us : List Chars} (as : List (Chars × Chars)) :
    attribNamespaces as ⊆ us → ∀ d, Local us (printAttribs as d) := by
  induction as with
  | nil => intro _ d; rw [printAttribs]; exact local_pure _ _
  | cons a as ih =>
    rcases a with ⟨k, v⟩
    intro h d
    rw [printAttribs]
    by_cases hk : qnGetNs k = []
    · have h' : attribNamespaces as ⊆ us := by
        intro u hu; exact h (by simpa [attribNamespaces, hk] using hu)
      rw [if_pos hk]
      exact local_bind (ih h' _) fun _ => local_pure _ _
    · have h' : attribNamespaces as ⊆ us := by
        intro u hu; refine h ?_
        simp only [attribNamespaces, List.map_cons] at hu ⊢
        rw [List.filter_cons_of_pos (by simpa using hk)]
        exact List.mem_cons_of_mem _ hu
      have hku : qnGetNs k ∈ us := by
        refine h ?_
        simp only [attribNamespaces, List.map_cons]
        rw [List.filter_cons_of_pos (by simpa using hk)]
        exact List.mem_cons_self ..
      rw [if_neg hk]
      exact local_bind (local_alloc hku) fun _ => local_bind (ih h' _) fun _ => local_pure _ _

mutual
theorem local_elem {us : List Chars} : (e : PElem) → namespaces e ⊆ us → ∀ indent space d, Local us (printElem indent space d e)
  | .mk tag attrib text tail [], h, indent, space, d => by
    simp only [namespaces] at h
    have h1 : attribNamespaces attrib ⊆ us := fun u hu => h (List.mem_append_left _ hu)
    have h2 : qnGetNs tag ∈ us := h (List.mem_append_right _ (List.mem_cons_self ..))
    simp only [printElem]
    exact local_bind (local_attribs _ h1 _) fun _ => local_bind (local_alloc h2) fun _ => local_pure _ _
  | .mk tag attrib text tail (c :: cs), h, indent, space, d => by
    rw [namespaces] at h
    have h1 : attribNamespaces attrib ⊆ us := fun u hu => h (List.mem_append_left _ hu)
    have h2 : qnGetNs tag ∈ us := h (List.mem_append_right _ (List.mem_cons_self ..))
    have h3 : namespacesAll (c :: cs) ⊆ us := fun u hu => h (List.mem_append_right _ (List.mem_cons_of_mem _ hu))
    rw [printElem]
    exact local_bind (local_attribs _ h1 _) fun _ => local_bind (local_alloc h2) fun _ =>
      local_bind (local_children (c :: cs) h3 _ _) fun _ => local_pure _ _
theorem local_children {us : List Chars} : (cs : List PElem) → namespacesAll cs ⊆ us → ∀ indent d, Local us (printChildren indent d cs)
  | [], _, indent, d => by rw [printChildren]; exact local_pure _ _
  | c :: cs, h, indent, d => by
    rw [namespacesAll] at h
    rw [printChildren]
    exact local_bind (local_elem c (fun u hu => h (List.mem_append_left _ hu)) _ _ _) fun _ =>
      local_bind (local_children cs (fun u hu => h (List.mem_append_right _ hu)) _ _) fun _ => local_pure _ _
end

end Xacml
