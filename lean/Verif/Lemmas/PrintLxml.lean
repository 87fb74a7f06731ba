import Verif.Spec.PrettyPrintLxml

/-! Lemmas about pretty printing with lxml. -/
namespace Xacml
open Spec

theorem mem_nsmapOf (l : List (Option Chars × Chars)) (p : Option Chars) (u : Chars) :
    (p, u) ∈ nsmapOf l ↔ l.lookup p = some u := by
  induction l with
  | nil => simp [nsmapOf]
  | cons x xs ih =>
    obtain ⟨q, v⟩ := x
    simp only [nsmapOf, List.mem_cons, List.mem_filter, ih, List.lookup_cons]
    by_cases h : p = q
    · subst h; simp [eq_comm]
    · have hb : (p == q) = false := beq_eq_false_iff_ne.2 h
      simp [h, hb]

theorem nsmapOf_sub (l : List (Option Chars × Chars)) : ∀ x ∈ nsmapOf l, x ∈ l := by
  induction l with
  | nil => intro x hx; cases hx
  | cons y ys ih =>
    intro x hx
    simp only [nsmapOf, List.mem_cons, List.mem_filter] at hx
    rcases hx with rfl | ⟨hx, -⟩
    · exact List.mem_cons_self ..
    · exact List.mem_cons_of_mem _ (ih x hx)

theorem lxmlPrefix_found {chain : List (Option Chars × Chars)} {u : Chars} {p : Chars} (h : lxmlPrefix chain u = .ok p) :
    ∃ q, chain.lookup q = some u ∧ p = prefixText q ∧ (q, u) ∈ chain := by
  rw [lxmlPrefix] at h
  cases hf : (nsmapOf chain).find? (fun x => x.2 == u) with
  | none => rw [hf] at h; cases h
  | some x =>
    rw [hf] at h
    cases h
    have h1 := List.mem_of_find?_eq_some hf
    have h2 : x.2 = u := by simpa using List.find?_some hf
    obtain ⟨q, v⟩ := x
    cases h2
    exact ⟨q, (mem_nsmapOf ..).1 h1, rfl, nsmapOf_sub _ _ h1⟩

theorem lxmlPrefix_total {chain : List (Option Chars × Chars)} {u : Chars} (h : ∃ q, chain.lookup q = some u) :
    ∃ p, lxmlPrefix chain u = .ok p := by
  obtain ⟨q, hq⟩ := h
  rw [lxmlPrefix]
  cases hf : (nsmapOf chain).find? (fun x => x.2 == u) with
  | none =>
    have := List.find?_eq_none.1 hf (q, u) ((mem_nsmapOf ..).2 hq)
    simp at this
  | some x => exact ⟨_, rfl⟩

theorem lxmlPrefix_none {chain : List (Option Chars × Chars)} {u : Chars} (h : ¬ ∃ q, chain.lookup q = some u) :
    lxmlPrefix chain u = .error .keyError := by
  cases hp : lxmlPrefix chain u with
  | ok p => obtain ⟨q, hq, -⟩ := lxmlPrefix_found hp; exact absurd ⟨q, hq⟩ h
  | error x =>
    rw [lxmlPrefix] at hp
    split at hp
    · cases hp
    · exact hp.symm

theorem mem_attribNamespaces_cons {a v u : Chars} {as : List (Chars × Chars)} :
    u ∈ attribNamespaces ((a, v) :: as) ↔ (u = qnGetNs a ∧ u ≠ []) ∨ u ∈ attribNamespaces as := by
  simp only [attribNamespaces, List.map_cons, List.mem_filter, List.mem_cons, decide_eq_true_eq]
  constructor
  · rintro ⟨h | h, h'⟩
    · exact .inl ⟨h, h'⟩
    · exact .inr ⟨h, h'⟩
  · rintro (⟨h, h'⟩ | ⟨h, h'⟩)
    · exact ⟨.inl h, h'⟩
    · exact ⟨.inr h, h'⟩

/-! ## Success -/

theorem attribs_succeed (chain : List (Option Chars × Chars)) (as : List (Chars × Chars)) (d : List Chars) :
    (∃ r, printAttribsLxml chain as d = .ok r) ↔ ∀ u ∈ attribNamespaces as, ∃ p, chain.lookup p = some u := by
  induction as generalizing d with
  | nil => simp [printAttribsLxml, attribNamespaces, pure, Except.pure]
  | cons x as ih =>
    obtain ⟨a, v⟩ := x
    rw [printAttribsLxml]
    by_cases h0 : qnGetNs a = []
    · rw [if_pos h0]
      have hs : (∀ u ∈ attribNamespaces ((a, v) :: as), ∃ p, chain.lookup p = some u) ↔
          ∀ u ∈ attribNamespaces as, ∃ p, chain.lookup p = some u := by
        constructor
        · intro h u hu; exact h u (mem_attribNamespaces_cons.2 (.inr hu))
        · intro h u hu
          rcases mem_attribNamespaces_cons.1 hu with ⟨rfl, h'⟩ | hu
          · exact absurd h0 h'
          · exact h u hu
      rw [hs, ← ih d]
      cases printAttribsLxml chain as d with
      | ok r => simp [bind, Except.bind, pure, Except.pure]
      | error x => simp [bind, Except.bind]
    · rw [if_neg h0]
      by_cases hq : ∃ q, chain.lookup q = some (qnGetNs a)
      · obtain ⟨p, hp⟩ := lxmlPrefix_total hq
        have hs : (∀ u ∈ attribNamespaces ((a, v) :: as), ∃ p, chain.lookup p = some u) ↔
            ∀ u ∈ attribNamespaces as, ∃ p, chain.lookup p = some u := by
          constructor
          · intro h u hu; exact h u (mem_attribNamespaces_cons.2 (.inr hu))
          · intro h u hu
            rcases mem_attribNamespaces_cons.1 hu with ⟨rfl, -⟩ | hu
            · exact hq
            · exact h u hu
        rw [hs, ← ih (declare d (qnGetNs a)), hp]
        cases printAttribsLxml chain as (declare d (qnGetNs a)) with
        | ok r => simp [bind, Except.bind, pure, Except.pure]
        | error x => simp [bind, Except.bind]
      · rw [lxmlPrefix_none hq]
        constructor
        · rintro ⟨r, hr⟩; cases hr
        · intro h; exact absurd (h _ (mem_attribNamespaces_cons.2 (.inl ⟨rfl, h0⟩))) hq

/-- One element, by its parts. -/
theorem printLxml_elem (indent space : Chars) (chain : List (Option Chars × Chars)) (d : List Chars) (tag : Chars)
    (nsDef : List (Option Chars × Chars)) (attrib : List (Chars × Chars)) (text tail : Option Chars) (children : List LNode) :
    (∃ out, printLxml indent space chain d (.elem tag nsDef attrib text tail children) = .ok out) ↔
      (∃ r, printAttribsLxml (nsDef ++ chain) attrib d = .ok r) ∧ (∃ p, lxmlPrefix (nsDef ++ chain) (qnGetNs tag) = .ok p) ∧
        ∀ r, printAttribsLxml (nsDef ++ chain) attrib d = .ok r →
          ∃ b, printLxmlAll (indent ++ space) (nsDef ++ chain) (declare r.2 (qnGetNs tag)) children = .ok b := by
  rw [printLxml]
  cases ha : printAttribsLxml (nsDef ++ chain) attrib d with
  | error x => simp [bind, Except.bind]
  | ok r =>
    cases hp : lxmlPrefix (nsDef ++ chain) (qnGetNs tag) with
    | error x => simp [bind, Except.bind]
    | ok p =>
      cases children with
      | nil => simp [bind, Except.bind, pure, Except.pure, printLxmlAll]
      | cons c cs =>
        simp only [bind, Except.bind]
        cases hb : printLxmlAll (indent ++ space) (nsDef ++ chain) (declare r.2 (qnGetNs tag)) (c :: cs) with
        | error x => simp [hb]
        | ok b => simp [hb, pure, Except.pure]

mutual
theorem lxml_succeeds : (e : LNode) → ∀ (indent space : Chars) (chain : List (Option Chars × Chars)) (d : List Chars),
    (∃ out, printLxml indent space chain d e = .ok out) ↔ (content e).isSome = true ∧ InScope chain e
  | .other t, indent, space, chain, d => by
    simp [printLxml, content]
  | .elem tag nsDef attrib text tail children, indent, space, chain, d => by
    rw [printLxml_elem, attribs_succeed, content, InScope]
    have hc := fun r => lxml_succeeds_all children (indent ++ space) (nsDef ++ chain) r
    have hcs : ((contents children).bind fun cs => some (PElem.mk tag attrib text tail cs)).isSome = (contents children).isSome := by
      cases contents children <;> rfl
    constructor
    · rintro ⟨h1, ⟨p, hp⟩, h3⟩
      obtain ⟨r, hr⟩ := (attribs_succeed (nsDef ++ chain) attrib d).2 h1
      obtain ⟨h4, h5⟩ := (hc _).1 (h3 r hr)
      refine ⟨hcs.trans h4, ?_, h5⟩
      intro u hu
      rcases List.mem_append.1 hu with hu | hu
      · exact h1 u hu
      · rw [List.mem_singleton.1 hu]
        obtain ⟨q, hq, -⟩ := lxmlPrefix_found hp
        exact ⟨q, hq⟩
    · rintro ⟨h1, h2, h3⟩
      refine ⟨fun u hu => h2 u (List.mem_append_left _ hu),
        lxmlPrefix_total (h2 _ (List.mem_append_right _ (List.mem_singleton.2 rfl))), ?_⟩
      intro r _
      exact (hc _).2 ⟨hcs.symm.trans h1, h3⟩
theorem lxml_succeeds_all : (es : List LNode) → ∀ (indent : Chars) (chain : List (Option Chars × Chars)) (d : List Chars),
    (∃ out, printLxmlAll indent chain d es = .ok out) ↔ (contents es).isSome = true ∧ InScopeAll chain es
  | [], indent, chain, d => by simp [printLxmlAll, contents, InScopeAll, pure, Except.pure]
  | e :: es, indent, chain, d => by
    rw [printLxmlAll, contents, InScopeAll]
    have h1 := lxml_succeeds e indent fourSpaces chain d
    have h2 := lxml_succeeds_all es indent chain d
    have hcs : ((content e).bind fun c => (contents es).bind fun cs => some (c :: cs)).isSome =
        ((content e).isSome && (contents es).isSome) := by
      cases content e <;> cases contents es <;> rfl
    have hcs' : (do let c ← content e; let cs ← contents es; some (c :: cs)).isSome =
        ((content e).isSome && (contents es).isSome) := hcs
    rw [hcs']
    cases hr : printLxml indent fourSpaces chain d e with
    | error x =>
      have : ¬ ((content e).isSome = true ∧ InScope chain e) := by
        rw [← h1, hr]; rintro ⟨o, ho⟩; cases ho
      constructor
      · rintro ⟨o, ho⟩; cases ho
      · rintro ⟨h, h', -⟩
        rw [Bool.and_eq_true] at h
        exact absurd ⟨h.1, h'⟩ this
    | ok r =>
      have h1' := h1.1 ⟨r, hr⟩
      rw [h1'.1, Bool.true_and]
      simp only [h1'.2, true_and]
      rw [← h2]
      cases hb : printLxmlAll indent chain d es with
      | error x => simp [bind, Except.bind]
      | ok b => simp [bind, Except.bind, pure, Except.pure]
end

/-! ## The same as with a registry -/

/-- The registry has the prefixes of the declarations. -/
def Covers (m : List (Chars × Chars)) (decls : List (Option Chars × Chars)) : Prop :=
  ∀ x ∈ decls, m.lookup x.2 = some (prefixText x.1)

theorem alloc_covered {m : List (Chars × Chars)} {decls chain : List (Option Chars × Chars)} (hm : Covers m decls)
    (hc : ∀ x ∈ chain, x ∈ decls) {u p : Chars} (h : lxmlPrefix chain u = .ok p) (s : PrintState) (hs : s.nsMap = m) :
    allocNsPrefix u s = .ok p s := by
  obtain ⟨q, -, rfl, hq⟩ := lxmlPrefix_found h
  have := hm _ (hc _ hq)
  simp only [allocNsPrefix, get, getThe, MonadStateOf.get, EStateM.get, bind, EStateM.bind, nsGet, hs]
  rw [this]
  rfl

theorem attribs_same {m : List (Chars × Chars)} {decls chain : List (Option Chars × Chars)} (hm : Covers m decls)
    (hc : ∀ x ∈ chain, x ∈ decls) (s : PrintState) (hs : s.nsMap = m) (as : List (Chars × Chars)) (d : List Chars)
    (r : Chars × List Chars) (h : printAttribsLxml chain as d = .ok r) : printAttribs as d s = .ok r s := by
  induction as generalizing d r with
  | nil => cases h; rfl
  | cons x as ih =>
    obtain ⟨a, v⟩ := x
    rw [printAttribsLxml] at h
    rw [printAttribs]
    by_cases h0 : qnGetNs a = []
    · rw [if_pos h0] at h ⊢
      cases hr : printAttribsLxml chain as d with
      | error x => rw [hr] at h; cases h
      | ok r' =>
        rw [hr] at h
        cases h
        simp only [bind, EStateM.bind, ih d r' hr]
        rfl
    · rw [if_neg h0] at h ⊢
      cases hp : lxmlPrefix chain (qnGetNs a) with
      | error x => rw [hp] at h; cases h
      | ok p =>
        rw [hp] at h
        cases hr : printAttribsLxml chain as (declare d (qnGetNs a)) with
        | error x => simp only [bind, Except.bind, hr] at h; cases h
        | ok r' =>
          simp only [bind, Except.bind, hr] at h
          cases h
          simp only [bind, EStateM.bind, alloc_covered hm hc hp s hs, ih _ r' hr]
          rfl

theorem contents_last : (es : List LNode) → (ts : List PElem) → contents es = some ts → (h : es ≠ []) → (h' : ts ≠ []) →
    (ts.getLast h').tail = (es.getLast h).tail
  | [], _, _, h, _ => absurd rfl h
  | [e], ts, hc, _, h' => by
    rw [contents, contents] at hc
    cases e with
    | other t => cases hc
    | elem tag nsDef attrib text tail children =>
      rw [content] at hc
      cases hcs : contents children with
      | none => rw [hcs] at hc; cases hc
      | some cs => rw [hcs] at hc; cases hc; rfl
  | e :: e' :: es, ts, hc, _, h' => by
    rw [contents] at hc
    cases he : content e with
    | none => rw [he] at hc; cases hc
    | some t =>
      rw [he] at hc
      cases hes : contents (e' :: es) with
      | none => rw [hes] at hc; cases hc
      | some ts' =>
        rw [hes] at hc
        cases hc
        have hne : ts' ≠ [] := by
          rintro rfl
          rw [contents] at hes
          cases h1 : content e' with
          | none => rw [h1] at hes; cases hes
          | some a =>
            rw [h1] at hes
            cases h2 : contents es with
            | none => rw [h2] at hes; cases hes
            | some b => rw [h2] at hes; cases hes
        rw [List.getLast_cons hne, List.getLast_cons (List.cons_ne_nil _ _)]
        exact contents_last (e' :: es) ts' hes _ hne

mutual
theorem lxml_same {m : List (Chars × Chars)} {decls : List (Option Chars × Chars)} (hm : Covers m decls) (s : PrintState)
    (hs : s.nsMap = m) : (e : LNode) → ∀ (indent space : Chars) (chain : List (Option Chars × Chars)) (d : List Chars)
    (t : PElem) (out : Chars), (∀ x ∈ chain ++ allDeclarations e, x ∈ decls) → content e = some t →
      printLxml indent space chain d e = .ok out → printElem indent space d t s = .ok out s
  | .other _, _, _, _, _, _, _, _, hc, _ => by cases hc
  | .elem tag nsDef attrib text tail children, indent, space, chain, d, t, out, hd, hc, h => by
    rw [content] at hc
    cases hcs : contents children with
    | none => rw [hcs] at hc; cases hc
    | some ts =>
      rw [hcs] at hc
      cases hc
      rw [allDeclarations] at hd
      have hd1 : ∀ x ∈ nsDef ++ chain, x ∈ decls := fun x hx => hd x (by
        simp only [List.mem_append] at hx ⊢; rcases hx with h | h <;> simp [h])
      have hd2 : ∀ x ∈ nsDef ++ chain ++ allDeclarationsAll children, x ∈ decls := fun x hx => hd x (by
        simp only [List.mem_append] at hx ⊢; rcases hx with (h | h) | h <;> simp [h])
      rw [printLxml] at h
      rw [printElem]
      cases ha : printAttribsLxml (nsDef ++ chain) attrib d with
      | error x => rw [ha] at h; cases h
      | ok r =>
        rw [ha] at h
        cases hp : lxmlPrefix (nsDef ++ chain) (qnGetNs tag) with
        | error x => simp only [bind, Except.bind, hp] at h; cases h
        | ok p =>
          simp only [bind, Except.bind, hp] at h
          simp only [bind, EStateM.bind, attribs_same hm hd1 s hs attrib d r ha, alloc_covered hm hd1 hp s hs]
          cases children with
          | nil =>
            cases hcs
            cases h
            rfl
          | cons c cs =>
            have hlast := contents_last (c :: cs) ts hcs (List.cons_ne_nil _ _)
            have hall := lxml_same_all hm s hs (c :: cs) (indent ++ space) (nsDef ++ chain) (declare r.2 (qnGetNs tag)) ts
            cases hb : printLxmlAll (indent ++ space) (nsDef ++ chain) (declare r.2 (qnGetNs tag)) (c :: cs) with
            | error x => simp only [hb] at h; cases h
            | ok b =>
              simp only [hb] at h
              cases h
              cases ts with
              | nil =>
                exfalso
                rw [contents] at hcs
                cases h1 : content c with
                | none => rw [h1] at hcs; cases hcs
                | some a =>
                  rw [h1] at hcs
                  cases h2 : contents cs with
                  | none => rw [h2] at hcs; cases hcs
                  | some b => rw [h2] at hcs; cases hcs
              | cons t' ts =>
                simp only [EStateM.bind, hall b hd2 hcs hb, hlast (List.cons_ne_nil _ _)]
                rfl
theorem lxml_same_all {m : List (Chars × Chars)} {decls : List (Option Chars × Chars)} (hm : Covers m decls) (s : PrintState)
    (hs : s.nsMap = m) : (es : List LNode) → ∀ (indent : Chars) (chain : List (Option Chars × Chars)) (d : List Chars)
    (ts : List PElem) (out : Chars), (∀ x ∈ chain ++ allDeclarationsAll es, x ∈ decls) → contents es = some ts →
      printLxmlAll indent chain d es = .ok out → printChildren indent d ts s = .ok out s
  | [], _, _, _, _, _, _, hc, h => by cases hc; cases h; rfl
  | e :: es, indent, chain, d, ts, out, hd, hc, h => by
    rw [contents] at hc
    rw [allDeclarationsAll] at hd
    have hd1 : ∀ x ∈ chain ++ allDeclarations e, x ∈ decls := fun x hx => hd x (by
      simp only [List.mem_append] at hx ⊢; rcases hx with h | h <;> simp [h])
    have hd2 : ∀ x ∈ chain ++ allDeclarationsAll es, x ∈ decls := fun x hx => hd x (by
      simp only [List.mem_append] at hx ⊢; rcases hx with h | h <;> simp [h])
    cases h1 : content e with
    | none => rw [h1] at hc; cases hc
    | some t =>
      rw [h1] at hc
      cases h2 : contents es with
      | none => rw [h2] at hc; cases hc
      | some ts' =>
        rw [h2] at hc
        cases hc
        rw [printLxmlAll] at h
        rw [printChildren]
        cases hr : printLxml indent fourSpaces chain d e with
        | error x => rw [hr] at h; cases h
        | ok r =>
          rw [hr] at h
          cases hb : printLxmlAll indent chain d es with
          | error x => simp only [bind, Except.bind, hb] at h; cases h
          | ok b =>
            simp only [bind, Except.bind, hb] at h
            cases h
            simp only [bind, EStateM.bind, lxml_same hm s hs e indent fourSpaces chain d t r hd1 h1 hr,
              lxml_same_all hm s hs es indent chain d ts' b hd2 h2 hb]
            rfl
end

end Xacml
