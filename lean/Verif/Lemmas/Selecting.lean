import Verif.Spec.Selecting
import Verif.Model.SelectorService
import Verif.Lemmas.XPathSelect
import Verif.Lemmas.Sending

/-! Lemmas about documents that are laid out differently. -/
namespace Xacml
open Spec

theorem relaidAll_length : ∀ {l l' : List PElem}, RelaidAll l l' → l'.length = l.length
  | [], l', h => by rw [RelaidAll] at h; subst h; rfl
  | e :: l, l', h => by
    rw [RelaidAll] at h
    obtain ⟨e', k', rfl, -, h⟩ := h
    simp [relaidAll_length h]

theorem relaidAll_get : ∀ {l l' : List PElem}, RelaidAll l l' → ∀ i : Nat,
    (l[i]? = none ∧ l'[i]? = none) ∨ ∃ e e', l[i]? = some e ∧ l'[i]? = some e' ∧ Relaid e e'
  | [], l', h, i => by rw [RelaidAll] at h; subst h; exact .inl ⟨rfl, rfl⟩
  | e :: l, l', h, i => by
    rw [RelaidAll] at h
    obtain ⟨e', k', rfl, h1, h⟩ := h
    cases i with
    | zero => exact .inr ⟨e, e', rfl, rfl, h1⟩
    | succ i => simpa using relaidAll_get h i

theorem relaidAll_nil {l l' : List PElem} (h : RelaidAll l l') : l' = [] ↔ l = [] := by
  rw [← List.length_eq_zero_iff, relaidAll_length h, List.length_eq_zero_iff]

/-- What relaid elements have in common. -/
theorem relaid_iff {t as x y cs} {e' : PElem} : Relaid (.mk t as x y cs) e' ↔
    ∃ x' y' cs', e' = .mk t as x' y' cs' ∧ (cs = [] → x' = x) ∧ RelaidAll cs cs' := by rw [Relaid]

mutual
theorem relaid_symm : ∀ {e e' : PElem}, Relaid e e' → Relaid e' e
  | .mk t as x y cs, e', h => by
    obtain ⟨x', y', cs', rfl, h1, h2⟩ := relaid_iff.1 h
    exact relaid_iff.2 ⟨x, y, cs, rfl, fun hc => (h1 ((relaidAll_nil h2).1 hc)).symm, relaidAll_symm h2⟩
theorem relaidAll_symm : ∀ {l l' : List PElem}, RelaidAll l l' → RelaidAll l' l
  | [], l', h => by rw [RelaidAll] at h; subst h; rw [RelaidAll]
  | e :: l, l', h => by
    rw [RelaidAll] at h
    obtain ⟨e', k', rfl, h1, h2⟩ := h
    rw [RelaidAll]
    exact ⟨e, l, rfl, relaid_symm h1, relaidAll_symm h2⟩
end

theorem relaid_at : ∀ (q : List Nat) {e e' : PElem}, Relaid e e' →
    (elemAt e q = none ∧ elemAt e' q = none) ∨ ∃ a a', elemAt e q = some a ∧ elemAt e' q = some a' ∧ Relaid a a'
  | [], e, e', h => .inr ⟨e, e', by cases e; rfl, by cases e'; rfl, h⟩
  | i :: q, .mk t as x y cs, e', h => by
    obtain ⟨x', y', cs', rfl, -, h2⟩ := relaid_iff.1 h
    simp only [elemAt]
    rcases relaidAll_get h2 i with ⟨h3, h4⟩ | ⟨a, a', h3, h4, h5⟩
    · rw [h3, h4]; exact .inl ⟨rfl, rfl⟩
    · rw [h3, h4]; exact relaid_at q h5

section
variable {r r' : PElem} (h : Relaid r r')
include h

theorem relaid_children (q : List Nat) : childrenAt r' q = childrenAt r q := by
  unfold childrenAt
  rcases relaid_at q h with ⟨h1, h2⟩ | ⟨⟨t, as, x, y, cs⟩, a', h1, h2, h3⟩
  · rw [h1, h2]
  · obtain ⟨x', y', cs', rfl, -, h4⟩ := relaid_iff.1 h3
    rw [h1, h2]
    simp only [relaidAll_length h4]

theorem relaid_kids (q : List Nat) : kidsOf r' q = kidsOf r q := by rw [xs_kids, xs_kids, relaid_children h]

theorem relaid_tag (q : List Nat) : tagOf r' q = tagOf r q := by
  unfold tagOf
  rw [xs_get, xs_get]
  rcases relaid_at q h with ⟨h1, h2⟩ | ⟨⟨t, as, x, y, cs⟩, a', h1, h2, h3⟩
  · rw [h1, h2]
  · obtain ⟨x', y', cs', rfl, -, h4⟩ := relaid_iff.1 h3
    rw [h1, h2]
    rfl

theorem relaid_attr (q : List Nat) (k : Chars) : attrOf r' q k = attrOf r q k := by
  unfold attrOf
  rw [xs_get, xs_get]
  rcases relaid_at q h with ⟨h1, h2⟩ | ⟨⟨t, as, x, y, cs⟩, a', h1, h2, h3⟩
  · rw [h1, h2]
  · obtain ⟨x', y', cs', rfl, -, h4⟩ := relaid_iff.1 h3
    rw [h1, h2]
    rfl

theorem relaid_leaf {q : List Nat} (hq : childrenAt r q = []) : innerText r' q = innerText r q ∧ textAt r' q = textAt r q := by
  rw [xs_innerText, xs_innerText]
  unfold stringAt textAt
  unfold childrenAt at hq
  rcases relaid_at q h with ⟨h1, h2⟩ | ⟨⟨t, as, x, y, cs⟩, a', h1, h2, h3⟩
  · rw [h1, h2]; exact ⟨rfl, rfl⟩
  · obtain ⟨x', y', cs', rfl, hx, h4⟩ := relaid_iff.1 h3
    rw [h1] at hq
    have hc : cs = [] := by simpa using hq
    have hc' := (relaidAll_nil h4).2 hc
    have := hx hc
    subst hc hc' this
    rw [h1, h2]
    exact ⟨rfl, by cases x' <;> rfl⟩

theorem relaid_named (q : List Nat) (t : Chars) : namedKids r' q t = namedKids r q t := by
  unfold namedKids
  rw [relaid_kids h]
  exact List.filter_congr fun q _ => by rw [relaid_tag h]

theorem relaid_accepts (n : NameTest) (q : List Nat) : n.accepts r' q = n.accepts r q := by
  unfold NameTest.accepts
  rcases relaid_at q h with ⟨h1, h2⟩ | ⟨⟨t, as, x, y, cs⟩, a', h1, h2, h3⟩
  · rw [h1, h2]
  · obtain ⟨x', y', cs', rfl, -, h4⟩ := relaid_iff.1 h3
    rw [h1, h2]

theorem relaid_tagsOk (hr : TagsOk r) : TagsOk r' := by
  intro p t as x y cs hp
  rcases relaid_at p h with ⟨h1, h2⟩ | ⟨⟨t0, as0, x0, y0, cs0⟩, a', h1, h2, h3⟩
  · rw [hp] at h2; cases h2
  · obtain ⟨x', y', cs', rfl, -, h4⟩ := relaid_iff.1 h3
    rw [hp] at h2
    cases h2
    exact hr p _ _ _ _ _ h1

end

mutual
theorem relaid_below : ∀ {e e' : PElem}, Relaid e e' → e'.iterBelow = e.iterBelow
  | .mk t as x y cs, e', h => by
    obtain ⟨x', y', cs', rfl, -, h2⟩ := relaid_iff.1 h
    rw [PElem.iterBelow, PElem.iterBelow, relaidAll_below h2]
theorem relaidAll_below : ∀ {l l' : List PElem}, RelaidAll l l' → ∀ k, PElem.iterBelowFrom k l' = PElem.iterBelowFrom k l
  | [], l', h, k => by rw [RelaidAll] at h; subst h; rfl
  | e :: l, l', h, k => by
    rw [RelaidAll] at h
    obtain ⟨e', k', rfl, h1, h2⟩ := h
    rw [PElem.iterBelowFrom, PElem.iterBelowFrom, relaid_below h1, relaidAll_below h2]
end

theorem relaid_inside {r r' : PElem} (h : Relaid r r') (q : List Nat) : insideOf r' q = insideOf r q := by
  unfold insideOf
  rw [xs_get, xs_get]
  rcases relaid_at q h with ⟨h1, h2⟩ | ⟨a, a', h1, h2, h3⟩
  · rw [h1, h2]
  · rw [h1, h2]
    simp only [relaid_below h3]

theorem relaid_holds {r r' : PElem} (h : Relaid r r') (hr : TagsOk r) {n : NameTest} {pr : Pred} (hok : pr.Ok)
    (hl : pr.OnLeaves r n) {q : List Nat} (hq : n.accepts r q = true) : pr.op.holds r' q = pr.op.holds r q := by
  have hkid : ∀ {m : NameTest}, m.Ok → m ≠ .any → LeafNames r m → ∀ x ∈ namedKids r q m.text, innerText r' x = innerText r x := by
    intro m hm ha hl x hx
    obtain ⟨hx1, hx2⟩ := List.mem_filter.1 hx
    rw [xs_kids] at hx1
    obtain ⟨-, -, hs⟩ := xs_mem_children.1 hx1
    rw [xs_test hr hm ha hs] at hx2
    exact (relaid_leaf h (hl x hx2)).1
  have hany : ∀ {l : List (List Nat)} {f g : List Nat → Bool}, (∀ x ∈ l, f x = g x) → l.any f = l.any g := by
    intro l f g hfg
    induction l with
    | nil => rfl
    | cons a l ih => simp only [List.any_cons]; rw [hfg a (by simp), ih fun x hx => hfg x (by simp [hx])]
  cases pr with
  | hasAttr k => simp only [Pred.op, XPred.holds, relaid_attr h]
  | attrIs k v => simp only [Pred.op, XPred.holds, relaid_attr h]
  | attrNot k v => simp only [Pred.op, XPred.holds, relaid_attr h]
  | hasChild m => simp only [Pred.op, XPred.holds, relaid_named h]
  | childIs m v =>
    simp only [Pred.op, XPred.holds, relaid_named h]
    exact hany fun x hx => by rw [hkid hok.1 hok.2.1 hl x hx]
  | childNot m v =>
    simp only [Pred.op, XPred.holds, relaid_named h]
    exact hany fun x hx => by rw [hkid hok.1 hok.2.1 hl x hx]
  | textIs v => simp only [Pred.op, XPred.holds, (relaid_leaf h (hl q hq)).1]
  | textNot v => simp only [Pred.op, XPred.holds, (relaid_leaf h (hl q hq)).1]
  | nth n => simp only [Pred.op, XPred.holds, relaid_named h, relaid_tag h]
  | fromLast n => simp only [Pred.op, XPred.holds, relaid_named h, relaid_tag h]

theorem relaid_preds {r r' : PElem} (h : Relaid r r') (hr : TagsOk r) {n : NameTest} {ps : List Pred} (hok : ∀ pr ∈ ps, pr.Ok)
    (hl : ∀ pr ∈ ps, pr.OnLeaves r n) {q : List Nat} (hq : n.accepts r q = true) :
    (ps.all fun pr => pr.op.holds r' q) = ps.all fun pr => pr.op.holds r q := by
  induction ps with
  | nil => rfl
  | cons p ps ih =>
    simp only [List.all_cons]
    rw [relaid_holds h hr (hok p (by simp)) (hl p (by simp)) hq, ih (fun x hx => hok x (by simp [hx])) fun x hx => hl x (by simp [hx])]

theorem relaid_step {r r' : PElem} (h : Relaid r r') (hr : TagsOk r) {s : Step} (hok : s.Ok) (hl : s.OnLeaves r) (l : List (List Nat)) :
    stepAll r' l s = stepAll r l s := by
  have hr' := relaid_tagsOk h hr
  cases s with
  | child n ps =>
    simp only [stepAll]
    congr 1
    funext p
    rw [xs_selected hr' hok.1 hok.2, xs_selected hr hok.1 hok.2, relaid_children h, List.filter_filter, List.filter_filter]
    refine List.filter_congr fun q _ => ?_
    rw [relaid_accepts h]
    cases hq : n.accepts r q with
    | false => simp
    | true => rw [relaid_preds h hr hok.2.1 hl hq]
  | deep n ps =>
    simp only [stepAll]
    congr 1
    funext p
    rw [relaid_inside h]
    refine List.filter_congr fun q _ => ?_
    rw [relaid_accepts h]
    cases hq : n.accepts r q with
    | false => simp
    | true => rw [relaid_preds h hr hok.2.1 hl hq]
  | self => rfl
  | parent => rfl

theorem relaid_steps {r r' : PElem} (h : Relaid r r') (hr : TagsOk r) : ∀ {ss : List Step}, PathOk ss →
    (∀ s ∈ ss, s.OnLeaves r) → ∀ l, ss.foldl (stepAll r') l = ss.foldl (stepAll r) l
  | [], _, _, _ => rfl
  | s :: ss, hok, hl, l => by
    rw [List.foldl_cons, List.foldl_cons, relaid_step h hr (hok s (by simp)) (hl s (by simp)),
      relaid_steps h hr (fun x hx => hok x (by simp [hx])) fun x hx => hl x (by simp [hx])]

/-! ## What readers see -/

theorem nodes_map : ∀ l : List PElem, PElem.nodes l = l.map PElem.node
  | [] => rfl
  | e :: l => by rw [PElem.nodes, nodes_map l]; rfl

mutual
theorem relaid_spaced : ∀ {e e' : PElem}, Relaid e e' → Spaced e.node e'.node
  | .mk t as x y cs, e', h => by
    obtain ⟨x', y', cs', rfl, h1, h2⟩ := relaid_iff.1 h
    rw [PElem.node, PElem.node, Spaced]
    refine ⟨_, _, rfl, fun hc => ?_, relaidAll_spaced h2⟩
    rw [nodes_map, List.map_eq_nil_iff] at hc
    rw [h1 hc]
theorem relaidAll_spaced : ∀ {l l' : List PElem}, RelaidAll l l' → SpacedAll (PElem.nodes l) (PElem.nodes l')
  | [], l', h => by rw [RelaidAll] at h; subst h; rw [PElem.nodes, SpacedAll]
  | e :: l, l', h => by
    rw [RelaidAll] at h
    obtain ⟨e', k', rfl, h1, h2⟩ := h
    rw [PElem.nodes, PElem.nodes, SpacedAll]
    exact ⟨_, _, rfl, relaid_spaced h1, relaidAll_spaced h2⟩
end

theorem local_tag {t : Chars} (h : TagName t) : localPart (String.ofList t) = String.ofList (splitTag t).2 := by
  have key : ∀ (a x : Chars), '}' ∉ x → ((a ++ '}' :: x).reverse.takeWhile (· != '}')).reverse = x := by
    intro a x hx
    have : (a ++ '}' :: x).reverse = x.reverse ++ '}' :: a.reverse := by simp
    rw [this, xp_takeWhile (by intro d hd; simp; rintro rfl; exact hx (by simpa using hd)) (by simp), List.reverse_reverse]
  unfold localPart
  rw [String.toList_ofList]
  rcases h with h | ⟨ns, name, rfl, hn, hp⟩
  · rw [xs_splitTag_plain (xs_plain_head h)]
    have : '}' ∉ t := xs_plain_notMem h (by decide)
    have e : t.reverse.takeWhile (· != '}') = t.reverse := by
      have := xp_takeWhile (p := (· != '}')) (l := t.reverse) (rest := []) (by intro d hd; simp; rintro rfl; exact this (by simpa using hd)) (by simp)
      rwa [List.append_nil] at this
    rw [e, List.reverse_reverse]
  · rw [xs_splitTag_brace hn.2.1, key ('{' :: ns) name (xs_plain_notMem hp (by decide))]

theorem node_children {t as x y cs} : (PElem.mk t as x y cs).node.children = cs.map PElem.node := by
  rw [PElem.node]; exact nodes_map cs

theorem node_name {t as x y cs} (h : TagName t) : (PElem.mk t as x y cs).node.name = String.ofList (splitTag t).2 := by
  rw [PElem.node]; exact local_tag h

theorem node_child {r : PElem} {q : List Nat} {e : PElem} (h : elemAt r q = some e) {c : XNode} (hc : c ∈ e.node.children) :
    ∃ i e', elemAt r (q ++ [i]) = some e' ∧ c = e'.node := by
  obtain ⟨t, as, x, y, cs⟩ := e
  rw [node_children] at hc
  obtain ⟨e', he, rfl⟩ := List.mem_map.1 hc
  obtain ⟨i, hi, rfl⟩ := List.getElem_of_mem he
  refine ⟨i, cs[i], ?_, rfl⟩
  rw [xs_elem_append, h]
  simp only [Option.bind_some, elemAt, List.getElem?_eq_getElem hi]

theorem flat_shallow {r : PElem} (hr : TagsOk r) (h : FlatValues r) : ValuesShallow r.node := by
  intro p hp a ha hn v hv
  have h0 : elemAt r [] = some r := by cases r; rfl
  obtain ⟨i, e1, h1, rfl⟩ := node_child h0 hp
  obtain ⟨j, e2, h2, rfl⟩ := node_child h1 ha
  obtain ⟨k, e3, h3, rfl⟩ := node_child h2 hv
  obtain ⟨t, as, x, y, cs⟩ := e2
  rw [node_name (hr _ _ _ _ _ _ h2)] at hn
  have := h i j k t as x y cs h2 (by rw [← hn]; simp)
  unfold childrenAt at this
  have h3' : elemAt r [i, j, k] = some e3 := h3
  rw [h3'] at this
  obtain ⟨t', as', x', y', cs'⟩ := e3
  have : cs' = [] := by simpa using this
  subst this
  rw [node_children]
  rfl

theorem relaid_flat {r r' : PElem} (h : Relaid r r') (hf : FlatValues r) : FlatValues r' := by
  intro i j k t as x y cs he ht
  rw [relaid_children h]
  rcases relaid_at [i, j] h with ⟨h1, h2⟩ | ⟨⟨t0, as0, x0, y0, cs0⟩, a', h1, h2, h3⟩
  · rw [he] at h2; cases h2
  · obtain ⟨x', y', cs', rfl, -, h4⟩ := relaid_iff.1 h3
    rw [he] at h2
    cases h2
    exact hf i j k _ _ _ _ _ h1 ht

/-! ## What is received -/

mutual
theorem parsed_node : ∀ e : PElem, parsed e = (parsedTree e).node
  | .mk t as x y cs => by
    rw [parsed, parsedTree, PElem.node, parsedAll_nodes cs]
    congr 1
    rcases x with _ | _ | _ <;> rfl
theorem parsedAll_nodes : ∀ l : List PElem, parsedAll l = PElem.nodes (parsedTrees l)
  | [] => rfl
  | e :: l => by rw [parsedAll, parsedTrees, PElem.nodes, parsed_node e, parsedAll_nodes l]
end

theorem someText_tight {x x' : Option Chars} (ht : ∀ t, x' = some t → stripChars t = t)
    (h : estrip x' = estrip x) : someText x' = someText (x.map stripChars) := by
  have hp : ∀ o : Option Chars, someText o = if o.getD [] = [] then none else some (o.getD []) := by
    intro o
    rcases o with _ | _ | _ <;> rfl
  have e' : x'.getD [] = estrip x' := by
    cases x' with
    | none => rfl
    | some x => exact (ht x rfl).symm
  have e : (x.map stripChars).getD [] = estrip x := by cases x <;> rfl
  rw [hp, hp, e', e, h]

mutual
theorem relaid_received : ∀ {e e' : PElem}, LeavesTight e' → stripped e' = stripped e → Relaid (trimmedTree e) (parsedTree e')
  | .mk t as x y cs, .mk t' as' x' y' cs', ht, hs => by
    simp only [stripped] at hs
    injection hs with hs1 hs2 hs3 hs4 hs5
    subst hs1 hs2
    rw [LeavesTight] at ht
    rw [trimmedTree, parsedTree]
    refine relaid_iff.2 ⟨_, _, _, rfl, fun hc => ?_, relaidAll_received ht.2 hs5⟩
    have hc : cs = [] := by
      cases cs with
      | nil => rfl
      | cons c cs => rw [trimmedTrees] at hc; cases hc
    subst hc
    have hc' : cs' = [] := by
      cases cs' with
      | nil => rfl
      | cons c cs => rw [strippedAll_cons, strippedAll] at hs5; cases hs5
    exact someText_tight (ht.1 hc') (Option.some.inj hs3)
theorem relaidAll_received : ∀ {l l' : List PElem}, LeavesTightAll l' → strippedAll l' = strippedAll l →
    RelaidAll (trimmedTrees l) (parsedTrees l')
  | [], l', ht, hs => by
    cases l' with
    | nil => rw [trimmedTrees, parsedTrees, RelaidAll]
    | cons c cs => rw [strippedAll_cons, strippedAll] at hs; cases hs
  | e :: l, l', ht, hs => by
    cases l' with
    | nil => rw [strippedAll_cons, strippedAll] at hs; cases hs
    | cons e' l' =>
      rw [strippedAll_cons, strippedAll_cons] at hs
      injection hs with hs1 hs2
      rw [LeavesTightAll] at ht
      rw [trimmedTrees, parsedTrees, RelaidAll]
      exact ⟨_, _, rfl, relaid_received ht.1 (setTail_stripped hs1), relaidAll_received ht.2 hs2⟩
end

theorem trimmedTrees_map : ∀ l : List PElem, trimmedTrees l = l.map trimmedTree
  | [] => rfl
  | e :: l => by rw [trimmedTrees, trimmedTrees_map l]; rfl

theorem trimmed_at : ∀ (q : List Nat) (e : PElem), elemAt (trimmedTree e) q = (elemAt e q).map trimmedTree
  | [], e => by cases e; rfl
  | i :: q, .mk t as x y cs => by
    rw [trimmedTree, elemAt, elemAt, trimmedTrees_map, List.getElem?_map]
    cases cs[i]? with
    | none => rfl
    | some c => exact trimmed_at q c

theorem trimmed_tagsOk {e : PElem} (h : TagsOk e) : TagsOk (trimmedTree e) := by
  intro p t as x y cs hp
  rw [trimmed_at] at hp
  cases he : elemAt e p with
  | none => rw [he] at hp; cases hp
  | some c =>
    rw [he] at hp
    obtain ⟨t', as', x', y', cs'⟩ := c
    rw [Option.map_some, trimmedTree] at hp
    cases hp
    exact h p _ _ _ _ _ he

end Xacml
