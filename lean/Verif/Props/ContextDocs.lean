import Verif.Props.Context
import Verif.Props.Readers

/-!
# C63: comments and namespaces in request documents
-/
namespace Xacml
open Spec

/-- Same name and, in values, same text. -/
def VAlike (n n' : XNode) : Prop := n'.name = n.name ∧ (n.name = "AttributeValue" → n'.text = n.text)

/-- What matters in the children of a part of a request. -/
def AAlike (R : XNode → XNode → Prop) (n n' : XNode) : Prop :=
  n'.name = n.name ∧
  (n.name = "Attribute" → (∀ k, n'.attr k = n.attr k) ∧ (n.children ≠ [] → n'.children ≠ []) ∧
    Each VAlike (elems n) (elems n')) ∧
  (n.name = "ResourceContent" → R n n')

def PAlike (R : XNode → XNode → Prop) (n n' : XNode) : Prop :=
  n'.name = n.name ∧ (∀ k, n'.attr k = n.attr k) ∧ Each (AAlike R) (elems n) (elems n')

def QAlike (R : XNode → XNode → Prop) (n n' : XNode) : Prop :=
  n'.name = n.name ∧ Each (PAlike R) (elems n) (elems n')

private theorem each_named {R : XNode → XNode → Prop} (hR : ∀ n n', R n n' → n'.name = n.name) {l l' : List XNode}
    (h : Each R l l') (k : String) :
    Each R (l.filter fun c => decide (c.name = k)) (l'.filter fun c => decide (c.name = k)) := by
  induction l generalizing l' with
  | nil => rw [each_nil] at h; subst h; simp
  | cons a l ih =>
    rw [each_cons] at h
    obtain ⟨b, bs, rfl, h1, h2⟩ := h
    simp only [List.filter_cons, hR a b h1]
    split
    · exact ⟨b, _, rfl, h1, ih h2⟩
    · exact ih h2

private theorem each_trans {α β α' β'} {P : α → β → Prop} {Q : α → α' → Prop} {P' : α' → β' → Prop} {S : β → β' → Prop}
    (h : ∀ a a' b, P a b → Q a a' → ∃ b', P' a' b' ∧ S b b') {l : List α} {l' : List α'} {bs : List β}
    (hp : Each P l bs) (hq : Each Q l l') : ∃ bs', Each P' l' bs' ∧ Each S bs bs' := by
  induction l generalizing l' bs with
  | nil => rw [each_nil] at hp hq; subst hp hq; exact ⟨[], rfl, rfl⟩
  | cons a l ih =>
    rw [each_cons] at hp hq
    obtain ⟨b, bs, rfl, h1, h2⟩ := hp
    obtain ⟨a', l', rfl, h3, h4⟩ := hq
    obtain ⟨b', h5, h6⟩ := h a a' b h1 h3
    obtain ⟨bs', h7, h8⟩ := ih h2 h4
    exact ⟨b' :: bs', ⟨b', bs', rfl, h5, h7⟩, ⟨b', bs', rfl, h6, h8⟩⟩

private theorem each_eq {β} {l l' : List β} (h : Each (fun a b => b = a) l l') : l' = l := by
  induction l generalizing l' with
  | nil => exact h
  | cons a l ih =>
    rw [each_cons] at h
    obtain ⟨b, bs, rfl, h1, h2⟩ := h
    rw [h1, ih h2]

theorem each_same {α β α'} {P : α → β → Prop} {Q : α → α' → Prop} {P' : α' → β → Prop}
    (h : ∀ a a' b, P a b → Q a a' → P' a' b) {l : List α} {l' : List α'} {bs : List β}
    (hp : Each P l bs) (hq : Each Q l l') : Each P' l' bs := by
  obtain ⟨bs', h1, h2⟩ := each_trans (S := fun b b' => b' = b) (fun a a' b x y => ⟨b, h a a' b x y, rfl⟩) hp hq
  rwa [each_eq h2] at h1

private theorem each_last {α β} {R : α → β → Prop} {l : List α} {l' : List β} (h : Each R l l') :
    (l.getLast? = none ∧ l'.getLast? = none) ∨ ∃ a b, l.getLast? = some a ∧ l'.getLast? = some b ∧ R a b := by
  induction l generalizing l' with
  | nil => rw [each_nil] at h; subst h; exact .inl ⟨rfl, rfl⟩
  | cons a l ih =>
    rw [each_cons] at h
    obtain ⟨b, bs, rfl, h1, h2⟩ := h
    right
    rcases ih h2 with ⟨h3, h4⟩ | ⟨x, y, h3, h4, h5⟩
    · rw [List.getLast?_eq_none_iff] at h3 h4
      subst h3 h4
      exact ⟨a, b, rfl, rfl, h1⟩
    · exact ⟨x, y, by rw [List.getLast?_cons, h3]; rfl, by rw [List.getLast?_cons, h4]; rfl, h5⟩

private theorem value_alike {cm : List (String × AVClass)} {dt : String} (n n' : XNode) (v : AttrVal)
    (h : IsCtxValue cm dt n v) (ha : VAlike n n') : IsCtxValue cm dt n' v := by
  have ht := ha.2 h.1
  unfold IsCtxValue at *
  rw [ha.1, ht]; exact h

private theorem attribute_alike {R} {cm : List (String × AVClass)} (n n' : XNode) (a : Attribute)
    (h : IsAttribute cm n a) (ha : AAlike R n n') : IsAttribute cm n' a := by
  obtain ⟨h1, h2, i, dt, h3, h4, h5, h6, h7, h8⟩ := h
  obtain ⟨hn, hb, _⟩ := ha
  obtain ⟨hat, hch, hel⟩ := hb h1
  exact ⟨by rw [hn, h1], hch h2, i, dt, by rw [hat, h3], h4, by rw [hat, h5], h6, by rw [hat, h7],
    each_same value_alike h8 hel⟩

private theorem hasAttributes_alike {R} {cm : List (String × AVClass)} {n n' : XNode} {l : List Attribute}
    (h : HasAttributes cm n l) (ha : Each (AAlike R) (elems n) (elems n')) : HasAttributes cm n' l :=
  each_same attribute_alike h (each_named (fun _ _ h => h.1) ha "Attribute")

private theorem subject_alike {R} {cm : List (String × AVClass)} (n n' : XNode) (s : CtxSubject)
    (h : IsSubject cm n s) (ha : PAlike R n n') : IsSubject cm n' s := by
  obtain ⟨h1, h2, h3⟩ := h
  obtain ⟨hn, hat, hel⟩ := ha
  unfold IsSubject
  rw [hn, hat]
  exact ⟨h1, hasAttributes_alike h2 hel, h3⟩

private theorem part_alike {R} {cm : List (String × AVClass)} {k : String} (n n' : XNode) (l : List Attribute)
    (h : IsPart cm k n l) (ha : PAlike R n n') : IsPart cm k n' l :=
  ⟨by rw [ha.1, h.1], hasAttributes_alike h.2 ha.2.2⟩

theorem each_mono_mem {α β} {R S : α → β → Prop} {l : List α} {l' : List β}
    (h : Each R l l') (hRS : ∀ a ∈ l, ∀ b, R a b → S a b) : Each S l l' := by
  induction l generalizing l' with
  | nil => exact h
  | cons a l ih =>
    rw [each_cons] at h
    obtain ⟨b, bs, rfl, h1, h2⟩ := h
    exact ⟨b, bs, rfl, hRS a (by simp) b h1, ih h2 fun x hx => hRS x (by simp [hx])⟩

private theorem resource_alike {R} {cm : List (String × AVClass)} (n n' : XNode) (r : ResourceX)
    (h : IsResource cm n r) (ha : PAlike R n n') : ∃ r', IsResource cm n' r' ∧ (r'.attributes = r.attributes ∧
      ((r.content = none ∧ r'.content = none) ∨
        ∃ x x', r.content = some (.node x) ∧ r'.content = some (.node x') ∧ R x x')) := by
  obtain ⟨h1, h2, h3⟩ := h
  obtain ⟨hn, hat, hel⟩ := ha
  refine ⟨{ attributes := r.attributes, content := (childrenNamed n' "ResourceContent").getLast?.map .node },
    ⟨by rw [hn, h1], hasAttributes_alike h2 hel, rfl⟩, rfl, ?_⟩
  rw [h3]
  have hc := each_mono_mem (S := R) (each_named (fun _ _ h => h.1) hel "ResourceContent") (by
    intro a ha b hab
    exact hab.2.2 (by simpa using (List.mem_filter.1 ha).2))
  unfold childrenNamed
  rcases each_last hc with ⟨h4, h5⟩ | ⟨x, y, h4, h5, h6⟩
  · left; rw [h4, h5]; exact ⟨rfl, rfl⟩
  · right; rw [h4, h5]; exact ⟨x, y, rfl, rfl, h6⟩

theorem request_alike {R} {cm : List (String × AVClass)} {n n' : XNode} {r : RequestX}
    (h : IsRequest cm n r) (ha : QAlike R n n') : ∃ r', IsRequest cm n' r' ∧ SameRequest R r r' := by
  obtain ⟨h1, h2, h3, h4, ⟨as, h5, h5'⟩, ⟨es, h6, h6'⟩⟩ := h
  obtain ⟨hn, hel⟩ := ha
  have hnm : ∀ n n', PAlike R n n' → n'.name = n.name := fun _ _ h => h.1
  obtain ⟨rs, h7, h8⟩ := each_trans resource_alike h4 (each_named hnm hel "Resource")
  refine ⟨{ r with resources := rs }, ⟨by rw [hn, h1], ?_, each_same subject_alike h3 (each_named hnm hel "Subject"), h7,
    ⟨as, each_same part_alike h5 (each_named hnm hel "Action"), h5'⟩,
    ⟨es, each_same part_alike h6 (each_named hnm hel "Environment"), h6'⟩⟩, rfl, rfl, rfl, h8⟩
  intro c hc
  have : ∃ a ∈ elems n, PAlike R a c := by
    clear h7 h8
    revert hc
    generalize elems n' = l' at hel
    generalize elems n = l at hel
    intro hc
    induction l generalizing l' with
    | nil => rw [each_nil] at hel; subst hel; cases hc
    | cons a l ih =>
      rw [each_cons] at hel
      obtain ⟨b, bs, rfl, h9, h10⟩ := hel
      rcases List.mem_cons.1 hc with rfl | hc
      · exact ⟨a, by simp, h9⟩
      · obtain ⟨x, hx, hx'⟩ := ih _ h10 hc; exact ⟨x, by simp [hx], hx'⟩
  obtain ⟨a, ha, hac⟩ := this
  rw [hac.1]
  exact h2 a ha

/-! ## Namespaces -/

private theorem ns_name {n n' : XNode} (h : SameButNs n n') : n'.name = n.name := by
  cases n <;> cases n' <;> rw [SameButNs] at h <;> simp_all [XNode.name, sameLocal_iff]

private theorem ns_attr {n n' : XNode} (h : SameButNs n n') (k : String) : n'.attr k = n.attr k := by
  cases n <;> cases n' <;> rw [SameButNs] at h <;> simp_all [XNode.attr]

private theorem ns_text {n n' : XNode} (h : SameButNs n n') : n'.text = n.text := by
  cases n <;> cases n' <;> rw [SameButNs] at h <;> simp_all [XNode.text]

private theorem ns_children {n n' : XNode} (h : SameButNs n n') : SameButNsL n.children n'.children := by
  cases n <;> cases n' <;> rw [SameButNs] at h <;> simp_all [XNode.children, SameButNsL]

private theorem nsL_elems {l l' : List XNode} (h : SameButNsL l l') :
    Each SameButNs (l.filter XNode.isElem) (l'.filter XNode.isElem) := by
  induction l generalizing l' with
  | nil => cases l' with
    | nil => rfl
    | cons => rw [SameButNsL] at h <;> simp_all
  | cons a l ih => cases l' with
    | nil => rw [SameButNsL] at h <;> simp_all
    | cons b l' =>
      rw [SameButNsL] at h
      have he : b.isElem = a.isElem := by
        have := h.1
        cases a <;> cases b <;> rw [SameButNs] at this <;> simp_all [XNode.isElem]
      simp only [List.filter_cons, he]
      split
      · exact ⟨b, _, rfl, h.1, ih h.2⟩
      · exact ih h.2

private theorem ns_empty {l l' : List XNode} (h : SameButNsL l l') : l ≠ [] → l' ≠ [] := by
  cases l <;> cases l' <;> rw [SameButNsL] at h <;> simp_all

private theorem ns_alike {n n' : XNode} (h : SameButNs n n') : QAlike SameButNs n n' := by
  refine ⟨ns_name h, each_mono_mem (nsL_elems (ns_children h)) ?_⟩
  intro p _ p' hp
  refine ⟨ns_name hp, ns_attr hp, each_mono_mem (nsL_elems (ns_children hp)) ?_⟩
  intro a _ a' ha
  refine ⟨ns_name ha, fun _ => ⟨ns_attr ha, ns_empty (ns_children ha), ?_⟩, fun _ => ha⟩
  exact each_mono_mem (nsL_elems (ns_children ha)) fun v _ v' hv => ⟨ns_name hv, fun _ => ns_text hv⟩

/-- **C63, namespaces.** Request elements that differ in namespaces only are read alike. (The relation is
symmetric, so neither is accepted if the other is not.) -/
theorem C63_namespaces (lib : Etree) (hl : lib.getchildren = true) (cm : List (String × AVClass)) (n n' : XNode)
    (h : SameButNs n n') (r : RequestX) (hr : readRequest lib cm n = .ok r) :
    ∃ r', readRequest lib cm n' = .ok r' ∧ SameRequest SameButNs r r' := by
  rw [C61_request lib hl] at hr
  obtain ⟨r', h1, h2⟩ := request_alike hr (ns_alike h)
  exact ⟨r', (C61_request lib hl ..).2 h1, h2⟩

/-! ## Comments -/

/-- **C63, comments, with the standard library's parser.** A comment anywhere does not matter. -/
theorem C63_standard_library (lib : Etree) (cm : List (String × AVClass)) (d d' : Doc) (h : CommentAnywhere d d') :
    readRequest lib cm d.stdTree = readRequest lib cm d'.stdTree := by
  unfold Doc.stdTree
  rw [anywhere_strip h]

private theorem outside_anywhere {P Q} {d d' : Doc} (h : CommentAdded P Q d d') : CommentAnywhere d d' := by
  induction h with
  | here tag a pre s post _ => exact .here tag a pre s post trivial
  | inside tag a pre c c' post _ _ ih => exact .inside tag a pre c c' post trivial ih

private theorem each_self {α} {R : α → α → Prop} (hR : ∀ a, R a a) (l : List α) : Each R l l := by
  induction l with
  | nil => rfl
  | cons a l ih => exact ⟨a, l, rfl, hR a, ih⟩

/-- The elements among the children: unchanged, or one of them with a comment more. -/
private theorem comment_elems {d d' : Doc} (h : CommentOutsideValue d d') :
    d'.lxmlTree.name = d.lxmlTree.name ∧ (∀ k, d'.lxmlTree.attr k = d.lxmlTree.attr k) ∧
    (d.lxmlTree.children ≠ [] → d'.lxmlTree.children ≠ []) ∧
    (d.lxmlTree.name = "AttributeValue" → d'.lxmlTree.text = d.lxmlTree.text) ∧
    Each (fun n n' => n' = n ∨ ∃ c c', CommentOutsideValue c c' ∧ n = c.lxmlTree ∧ n' = c'.lxmlTree)
      (elems d.lxmlTree) (elems d'.lxmlTree) := by
  cases h with
  | here tag a pre s post hi =>
    have hcs : Doc.lxmlChildren (.comment s :: post) = .other :: Doc.lxmlChildren post := by
      rw [Doc.lxmlChildren, Doc.lxmlTree]; simp
    rw [Doc.lxmlTree, Doc.lxmlTree]
    refine ⟨rfl, fun _ => rfl, ?_, ?_, ?_⟩
    · simp only [XNode.children, lxmlChildren_append, hcs]; simp
    · intro hn
      rcases hi with hi | hi
      · exact absurd hn hi
      · simp only [XNode.text]; rw [leadingText_after pre post s hi]
    · simp only [elems, XNode.children, lxmlChildren_append, hcs, List.filter_append, List.filter_cons, XNode.isElem,
        Bool.false_eq_true, if_false]
      exact each_self (fun _ => .inl rfl) _
  | inside tag a pre c c' post _ hc =>
    obtain ⟨t1, a1, x, x', rfl, rfl⟩ := commentAdded_elem hc
    have hk : ∀ x, Doc.lxmlChildren (.elem t1 a1 x :: post) = (Doc.elem t1 a1 x).lxmlTree :: Doc.lxmlChildren post := by
      intro x; rw [Doc.lxmlChildren]; simp
    have hE : ∀ x, ((Doc.elem t1 a1 x).lxmlTree).isElem = true := by intro x; rw [Doc.lxmlTree]; rfl
    have hl := leadingText_inside pre (.elem t1 a1 x) (.elem t1 a1 x') post (by simp) (by simp)
    rw [Doc.lxmlTree, Doc.lxmlTree]
    refine ⟨rfl, fun _ => rfl, ?_, ?_, ?_⟩
    · simp only [XNode.children, lxmlChildren_append, hk]; simp
    · intro _; simp only [XNode.text]; rw [hl]
    · simp only [elems, XNode.children, lxmlChildren_append, hk, List.filter_append, List.filter_cons, hE, if_true]
      rw [each_append]
      exact ⟨_, _, rfl, each_self (fun _ => .inl rfl) _, _, _, rfl, .inr ⟨_, _, hc, rfl, rfl⟩,
        each_self (fun _ => .inl rfl) _⟩

private theorem comment_alike {d d' : Doc} (h : CommentOutsideValue d d') :
    QAlike ContentCommented d.lxmlTree d'.lxmlTree := by
  have vself : ∀ n, VAlike n n := fun _ => ⟨rfl, fun _ => rfl⟩
  have aself : ∀ n, AAlike ContentCommented n n := fun n =>
    ⟨rfl, fun _ => ⟨fun _ => rfl, id, each_self vself _⟩, fun _ => .inl rfl⟩
  have pself : ∀ n, PAlike ContentCommented n n := fun n => ⟨rfl, fun _ => rfl, each_self aself _⟩
  obtain ⟨h1, _, _, _, h5⟩ := comment_elems h
  refine ⟨h1, each_mono_mem h5 ?_⟩
  rintro p _ p' (rfl | ⟨c, c', hc, rfl, rfl⟩)
  · exact pself _
  obtain ⟨h1, h2, _, _, h5⟩ := comment_elems hc
  refine ⟨h1, h2, each_mono_mem h5 ?_⟩
  rintro a _ a' (rfl | ⟨c, c', hc, rfl, rfl⟩)
  · exact aself _
  obtain ⟨h1, h2, h3, _, h5⟩ := comment_elems hc
  refine ⟨h1, fun _ => ⟨h2, h3, each_mono_mem h5 ?_⟩, fun _ => .inr ⟨c, c', outside_anywhere hc, rfl, rfl⟩⟩
  rintro v _ v' (rfl | ⟨e, e', he, rfl, rfl⟩)
  · exact vself _
  · obtain ⟨h1, _, _, h4, _⟩ := comment_elems he
    exact ⟨h1, h4⟩

/-- **C63, comments, with lxml (partial).** Adding a comment to a request that can be read, anywhere but
before text in an AttributeValue, changes nothing. Missing: comments within values (`C63_violated_value`)
and that the comment does not make an unreadable request readable (`C63_violated_empty`). -/
theorem C63_lxml_partial (lib : Etree) (hl : lib.getchildren = true) (cm : List (String × AVClass)) (d d' : Doc)
    (h : CommentOutsideValue d d') (r : RequestX) (hr : readRequest lib cm d.lxmlTree = .ok r) :
    ∃ r', readRequest lib cm d'.lxmlTree = .ok r' ∧ SameRequest ContentCommented r r' := by
  rw [C61_request lib hl] at hr
  obtain ⟨r', h1, h2⟩ := request_alike hr (comment_alike h)
  exact ⟨r', (C61_request lib hl ..).2 h1, h2⟩

/-! ## Cases and violations -/

namespace Samples

/-- A request of one subject with one attribute, whose content can be chosen. -/
def requestDoc (ns : String) (content : List Doc) : Doc :=
  .elem (ns ++ "Request") [] [.text "\n",
    .elem (ns ++ "Subject") [] [
      .elem (ns ++ "Attribute") [("AttributeId", "role"), ("DataType", "http://www.w3.org/2001/XMLSchema#string")] content],
    .elem (ns ++ "Resource") [] [.elem (ns ++ "ResourceContent") [] [.text "x"]],
    .elem (ns ++ "Action") [] []]

/-- The values of the first attribute of the first subject. -/
def firstValues : Except Exc RequestX → Option (List (Option Native))
  | .ok { subjects := { attributes := a :: _, .. } :: _, .. } => some (a.values.map (·.value))
  | _ => none

def value (ns : String) (content : List Doc) : Doc := .elem (ns ++ "AttributeValue") [] content

def lxml : Etree := { lxml := true, getchildren := true }

end Samples
open Samples

/-- **C63 is violated with lxml**: a comment in an attribute value cuts off the rest of it. -/
theorem C63_violated_value : ∃ d d', CommentAnywhere d d' ∧
    firstValues (readRequest lxml stdClassMap d.lxmlTree) = some [some (.str "administrator")] ∧
    firstValues (readRequest lxml stdClassMap d'.lxmlTree) = some [some (.str "admin")] := by
  refine ⟨requestDoc "" [value "" [.text "admin", .text "istrator"]],
    requestDoc "" [value "" [.text "admin", .comment "x", .text "istrator"]], ?_, by decide +kernel, by decide +kernel⟩
  exact .inside _ _ [_] _ _ [_, _] trivial (.inside _ _ [] _ _ [] trivial (.inside _ _ [] _ _ [] trivial
    (.here _ _ [.text "admin"] "x" [.text "istrator"] trivial)))

/-- **C63 is violated with lxml**: an attribute without values is rejected, but not with a comment in it. -/
theorem C63_violated_empty : ∃ d d', CommentOutsideValue d d' ∧
    (readRequest lxml stdClassMap d.lxmlTree).isOk = false ∧
    firstValues (readRequest lxml stdClassMap d'.lxmlTree) = some [] := by
  refine ⟨requestDoc "" [], requestDoc "" [.comment "x"], ?_, by decide +kernel, by decide +kernel⟩
  exact .inside _ _ [_] _ _ [_, _] trivial (.inside _ _ [] _ _ [] trivial (.here _ _ [] "x" [] (.inl (by decide +kernel))))

/-- Hypotheses of C63: a comment between the values of an attribute. -/
example : CommentOutsideValue (requestDoc "" [value "" [.text "a"], value "" [.text "b"]])
      (requestDoc "" [value "" [.text "a"], .comment "x", value "" [.text "b"]]) ∧
    firstValues (readRequest lxml stdClassMap (requestDoc "" [value "" [.text "a"], value "" [.text "b"]]).lxmlTree) =
      some [some (.str "a"), some (.str "b")] :=
  ⟨.inside _ _ [_] _ _ [_, _] trivial (.inside _ _ [] _ _ [] trivial (.here _ _ [_] "x" [_] (.inl (by decide +kernel)))),
    by decide +kernel⟩

/-- Hypotheses of C63: a request with and without namespace. -/
example : SameButNs (XNode.elem "{urn:c}Request" [] none [.elem "{urn:c}Subject" [] none []])
    (XNode.elem "Request" [] none [.elem "{urn:d}Subject" [] none []]) := by
  rw [SameButNs, SameButNsL, SameButNs, SameButNsL]
  exact ⟨⟨"{urn:c}", "", "Request", .inr ⟨"{urn:c", rfl⟩, .inl rfl, by decide, rfl, rfl⟩, rfl, rfl,
    ⟨⟨"{urn:c}", "{urn:d}", "Subject", .inr ⟨"{urn:c", rfl⟩, .inr ⟨"{urn:d", rfl⟩, by decide, rfl, rfl⟩, rfl, rfl,
      trivial⟩, trivial⟩

end Xacml
