import Verif.Spec.Sending
import Verif.Lemmas.PrettyPrint
import Verif.Props.ContextDocs

/-! Lemmas about requests and responses sent as text. -/
namespace Xacml
open Spec

/-! ## From characters to trees -/

theorem ofList_toList (s : String) : String.ofList s.toList = s := by simp

theorem asTrees_each : (l : List XNode) → (ts : List PElem) → asTrees l = some ts → Each (fun n t => asTree n = some t) l ts
  | [], ts, h => by rw [asTrees] at h; cases h; rfl
  | n :: l, ts, h => by
    rw [asTrees] at h
    cases h1 : asTree n with
    | none => rw [h1] at h; cases h
    | some t =>
      rw [h1] at h
      cases h2 : asTrees l with
      | none => rw [h2] at h; cases h
      | some ts' =>
        rw [h2] at h
        cases h
        exact ⟨t, ts', rfl, h1, asTrees_each l ts' h2⟩

theorem stripped_tail (e : PElem) : (stripped e).tail = none := by cases e; rfl

theorem setTail_stripped {e e' : PElem} {t t' : Option Chars} (h : (stripped e).setTail t = (stripped e').setTail t') :
    stripped e = stripped e' := by
  cases e; cases e'
  simp only [stripped, PElem.setTail] at h ⊢
  injection h with h1 h2 h3 h4 h5
  rw [h1, h2, h3, h5]

theorem parsed_tight {text : Option String} {text' : Option Chars} (ht : ∀ x, text' = some x → stripChars x = x)
    (h : estrip text' = estrip (text.map String.toList)) : parsedText text' = text.bind trimmed := by
  have e' : text'.getD [] = estrip text' := by
    cases text' with
    | none => rfl
    | some x => exact (ht x rfl).symm
  have hp : ∀ o : Option Chars, parsedText o = if o.getD [] = [] then none else some (String.ofList (o.getD [])) := by
    intro o
    cases o with
    | none => rfl
    | some x => cases x <;> rfl
  rw [hp, e', h]
  cases text with
  | none => rfl
  | some s => rfl

mutual
theorem respaced_of : (n : XNode) → ∀ (t t' : PElem), asTree n = some t → LeavesTight t' → stripped t' = stripped t →
    Respaced n (parsed t')
  | .other, _, _, h, _, _ => by cases h
  | .elem tag attrib text children, t, .mk tag' attrib' text' tail' children', h, ht', hs => by
    rw [asTree] at h
    cases h1 : asTrees children with
    | none => rw [h1] at h; cases h
    | some ts =>
      rw [h1] at h
      cases h
      simp only [stripped] at hs
      injection hs with hs1 hs2 hs3 hs4 hs5
      subst hs1 hs2
      rw [LeavesTight] at ht'
      rw [parsed, Respaced]
      refine ⟨parsedText text', _, ?_, ?_, respacedAll_of children ts children' h1 ht'.2 hs5⟩
      · congr 1
        · exact ofList_toList tag
        · rw [List.map_map]
          conv => rhs; rw [← List.map_id attrib]
          apply List.map_congr_left
          intro a _
          simp
      · intro hc
        subst hc
        rw [asTrees] at h1
        cases h1
        have hc' : children' = [] := by
          cases children' with
          | nil => rfl
          | cons c cs => rw [strippedAll_cons, strippedAll] at hs5; cases hs5
        exact parsed_tight (ht'.1 hc') (Option.some.inj hs3)
theorem respacedAll_of : (l : List XNode) → ∀ (ts ts' : List PElem), asTrees l = some ts → LeavesTightAll ts' →
    strippedAll ts' = strippedAll ts → RespacedAll l (parsedAll ts')
  | [], ts, ts', h, _, hs => by
    rw [asTrees] at h
    cases h
    cases ts' with
    | nil => rw [parsedAll, RespacedAll]
    | cons c cs => rw [strippedAll_cons, strippedAll] at hs; cases hs
  | n :: l, ts, ts', h, ht', hs => by
    obtain ⟨t, k, rfl, h1, -⟩ := asTrees_each _ _ h
    have h2 : asTrees l = some k := by
      rw [asTrees, h1] at h
      cases h3 : asTrees l with
      | none => rw [h3] at h; cases h
      | some k' => rw [h3] at h; cases h; rfl
    cases ts' with
    | nil => rw [strippedAll_cons, strippedAll] at hs; cases hs
    | cons t' k' =>
      rw [strippedAll_cons, strippedAll_cons] at hs
      injection hs with hs1 hs2
      rw [LeavesTightAll] at ht'
      rw [parsedAll, RespacedAll]
      exact ⟨_, _, rfl, respaced_of n t t' h1 ht'.1 (setTail_stripped hs1), respacedAll_of l k k' h2 ht'.2 hs2⟩
end

/-! ## Trimming first -/

mutual
/-- All texts in elements without children trimmed. -/
def trimLeaves : XNode → XNode
  | .other => .other
  | .elem tag attrib text children => .elem tag attrib (if children.isEmpty then text.bind trimmed else text) (trimLeavesAll children)
def trimLeavesAll : List XNode → List XNode
  | [] => []
  | n :: l => trimLeaves n :: trimLeavesAll l
end

mutual
/-- The same elements with the same attributes and, in elements without children, the same text. -/
def Spaced : XNode → XNode → Prop
  | .other, _ => False
  | .elem tag attrib text children, n' => ∃ text' children', n' = .elem tag attrib text' children' ∧
      (children = [] → text' = text) ∧ SpacedAll children children'
def SpacedAll : List XNode → List XNode → Prop
  | [], l' => l' = []
  | n :: l, l' => ∃ n' k', l' = n' :: k' ∧ Spaced n n' ∧ SpacedAll l k'
end

theorem trimLeavesAll_nil {l : List XNode} : trimLeavesAll l = [] ↔ l = [] := by cases l <;> simp [trimLeavesAll]

theorem trimLeavesAll_map : (l : List XNode) → trimLeavesAll l = l.map trimLeaves
  | [] => rfl
  | n :: l => by rw [trimLeavesAll, List.map_cons, trimLeavesAll_map l]

mutual
theorem respaced_iff : (n n' : XNode) → (Respaced n n' ↔ Spaced (trimLeaves n) n')
  | .other, n' => by rw [trimLeaves, Respaced, Spaced]
  | .elem tag attrib text children, n' => by
    rw [trimLeaves, Respaced, Spaced]
    constructor
    · rintro ⟨text', children', h1, h2, h3⟩
      refine ⟨text', children', h1, ?_, (respacedAll_iff children children').1 h3⟩
      intro h
      rw [trimLeavesAll_nil] at h
      rw [h2 h, h]
      rfl
    · rintro ⟨text', children', h1, h2, h3⟩
      refine ⟨text', children', h1, ?_, (respacedAll_iff children children').2 h3⟩
      intro h
      rw [h2 (trimLeavesAll_nil.2 h), h]
      rfl
theorem respacedAll_iff : (l l' : List XNode) → (RespacedAll l l' ↔ SpacedAll (trimLeavesAll l) l')
  | [], l' => by rw [trimLeavesAll, RespacedAll, SpacedAll]
  | n :: l, l' => by
    rw [trimLeavesAll, RespacedAll, SpacedAll]
    constructor
    · rintro ⟨n', k', h1, h2, h3⟩
      exact ⟨n', k', h1, (respaced_iff n n').1 h2, (respacedAll_iff l k').1 h3⟩
    · rintro ⟨n', k', h1, h2, h3⟩
      exact ⟨n', k', h1, (respaced_iff n n').2 h2, (respacedAll_iff l k').2 h3⟩
end

theorem trimLeaves_name (n : XNode) : (trimLeaves n).name = n.name := by cases n <;> rfl

theorem trimLeaves_children (n : XNode) : (trimLeaves n).children = n.children.map trimLeaves := by
  cases n with
  | other => rfl
  | elem tag attrib text children => exact trimLeavesAll_map children

theorem trimLeaves_make (lib : Etree) (name uri : String) (attrib : List (String × String)) (ns : List XNode) :
    trimLeaves (makeElement lib name uri attrib none ns) = makeElement lib name uri attrib none (ns.map trimLeaves) := by
  rw [makeElement, trimLeaves, makeElement, trimLeavesAll_map]
  congr 1
  split <;> rfl

theorem trimLeaves_leaf (lib : Etree) (name uri : String) (attrib : List (String × String)) (t : Option String) :
    trimLeaves (makeElement lib name uri attrib t []) = makeElement lib name uri attrib (t.bind trimmed) [] := rfl

/-! ## Spaced elements -/

theorem spaced_name {n n' : XNode} (h : Spaced n n') : n'.name = n.name := by
  cases n with
  | other => rw [Spaced] at h; cases h
  | elem tag attrib text children => rw [Spaced] at h; obtain ⟨_, _, rfl, -⟩ := h; rfl

theorem spaced_attr {n n' : XNode} (h : Spaced n n') (k : String) : n'.attr k = n.attr k := by
  cases n with
  | other => rw [Spaced] at h; cases h
  | elem tag attrib text children => rw [Spaced] at h; obtain ⟨_, _, rfl, -⟩ := h; rfl

theorem spaced_elem {n n' : XNode} (h : Spaced n n') : n.isElem = true ∧ n'.isElem = true := by
  cases n with
  | other => rw [Spaced] at h; cases h
  | elem tag attrib text children => rw [Spaced] at h; obtain ⟨_, _, rfl, -⟩ := h; exact ⟨rfl, rfl⟩

theorem spaced_children {n n' : XNode} (h : Spaced n n') : SpacedAll n.children n'.children := by
  cases n with
  | other => rw [Spaced] at h; cases h
  | elem tag attrib text children => rw [Spaced] at h; obtain ⟨_, _, rfl, -, h⟩ := h; exact h

theorem spaced_text {n n' : XNode} (h : Spaced n n') (hc : n.children = []) : n'.text = n.text := by
  cases n with
  | other => rw [Spaced] at h; cases h
  | elem tag attrib text children =>
    rw [Spaced] at h
    obtain ⟨_, _, rfl, h, -⟩ := h
    exact h hc

theorem spacedAll_each : (l l' : List XNode) → SpacedAll l l' → Each Spaced l l'
  | [], l', h => by rw [SpacedAll] at h; exact h
  | n :: l, l', h => by
    rw [SpacedAll] at h
    obtain ⟨n', k', rfl, h1, h2⟩ := h
    exact ⟨n', k', rfl, h1, spacedAll_each l k' h2⟩

theorem each_elems {l l' : List XNode} (h : Each Spaced l l') : Each Spaced (l.filter XNode.isElem) (l'.filter XNode.isElem) := by
  induction l generalizing l' with
  | nil => rw [each_nil] at h; subst h; rfl
  | cons n l ih =>
    obtain ⟨n', k', rfl, h1, h2⟩ := h
    obtain ⟨e1, e2⟩ := spaced_elem h1
    rw [List.filter_cons_of_pos e1, List.filter_cons_of_pos e2]
    exact ⟨n', _, rfl, h1, ih h2⟩

theorem spaced_elems {n n' : XNode} (h : Spaced n n') : Each Spaced (elems n) (elems n') :=
  each_elems (spacedAll_each _ _ (spaced_children h))

theorem spaced_nonempty {n n' : XNode} (h : Spaced n n') (hc : n.children ≠ []) : n'.children ≠ [] := by
  have h' := spacedAll_each _ _ (spaced_children h)
  intro h0
  rw [h0] at h'
  cases hn : n.children with
  | nil => exact hc hn
  | cons a l => rw [hn] at h'; obtain ⟨_, _, h1, -⟩ := h'; cases h1

/-- The values in the document are elements without children. -/
def ValuesShallow (n : XNode) : Prop :=
  ∀ p ∈ n.children, ∀ a ∈ p.children, a.name = "Attribute" → ∀ v ∈ a.children, v.children = []

theorem spaced_request {n n' : XNode} (h : Spaced n n') (hs : ValuesShallow n) : QAlike Spaced n n' := by
  refine ⟨spaced_name h, each_mono_mem (spaced_elems h) ?_⟩
  intro p hp p' hpp
  refine ⟨spaced_name hpp, spaced_attr hpp, each_mono_mem (spaced_elems hpp) ?_⟩
  intro a ha a' haa
  refine ⟨spaced_name haa, fun hn => ⟨spaced_attr haa, spaced_nonempty haa, each_mono_mem (spaced_elems haa) ?_⟩, fun _ => haa⟩
  intro v hv v' hvv
  have := hs p (List.mem_filter.1 hp).1 a (List.mem_filter.1 ha).1 hn v (List.mem_filter.1 hv).1
  exact ⟨spaced_name hvv, fun _ => spaced_text hvv this⟩

/-! ## Written elements -/

theorem asTree_tail {n : XNode} {t : PElem} (h : asTree n = some t) : t.tail = none := by
  cases n with
  | other => cases h
  | elem tag attrib text children =>
    rw [asTree] at h
    cases h1 : asTrees children with
    | none => rw [h1] at h; cases h
    | some ts => rw [h1] at h; cases h; rfl

theorem printableAll_of : (ts : List PElem) → (∀ t ∈ ts, Printable t ∧ t.tail = none) → PrintableAll ts
  | [], _ => trivial
  | [t], h => ⟨(h t (by simp)).1, by rw [(h t (by simp)).2]; intro s hs; cases hs⟩
  | t :: t' :: ts, h => by
    rw [PrintableAll]
    exact ⟨(h t (by simp)).1, by rw [(h t (by simp)).2]; rfl, printableAll_of (t' :: ts) fun x hx => h x (by simp [hx])⟩

theorem sendable_all : (l : List XNode) → (∀ n ∈ l, Sendable n) →
    ∃ ts, asTrees l = some ts ∧ ∀ t ∈ ts, Printable t ∧ t.tail = none
  | [], _ => ⟨[], rfl, by simp⟩
  | n :: l, h => by
    obtain ⟨t, h1, h2⟩ := h n (by simp)
    obtain ⟨ts, h4, h5⟩ := sendable_all l fun x hx => h x (by simp [hx])
    refine ⟨t :: ts, by rw [asTrees, h1, h4]; rfl, ?_⟩
    intro x hx
    rcases List.mem_cons.1 hx with rfl | hx
    · exact ⟨h2, asTree_tail h1⟩
    · exact h5 x hx

theorem contextTag_clark (name : String) : (contextTag name).toList = clark contextNs.toList name.toList := by
  simp [contextTag, clark]

theorem contextNs_ok : NamespaceOk contextNs.toList := by
  refine ⟨by decide +kernel, ?_, by decide +kernel⟩
  show List.all _ _ = true
  decide +kernel

theorem written_ncname : ∀ s ∈ ["Request", "Subject", "Resource", "Action", "Environment", "Attribute", "AttributeValue", "AttributeId",
    "DataType", "Issuer", "Response", "Result", "Decision"], NCName s.toList ∧ s ≠ "xmlns" := by
  intro s hs
  have h : (["Request", "Subject", "Resource", "Action", "Environment", "Attribute", "AttributeValue", "AttributeId",
    "DataType", "Issuer", "Response", "Result", "Decision"].all fun s => (s.toList.head?.any nameStartChar && s.toList.all nameChar) && (s != "xmlns")) = true := by
    decide +kernel
  have h := List.all_eq_true.1 h s hs
  simp only [Bool.and_eq_true, bne_iff_ne] at h
  exact h

theorem sendable_make {lib : Etree} (hl : lib.lxml = false) {name uri : String} (hn : NCName name.toList)
    {attrib : List (String × String)} (ha : ∀ a ∈ attrib, NCName a.1.toList ∧ a.1 ≠ "xmlns" ∧ AttValue a.2.toList)
    (hnd : (attrib.map Prod.fst).Nodup) {text : Option String} {children : List XNode}
    (ht : ∀ s, text = some s → CharData s.toList) (hc : ∀ c ∈ children, Sendable c) :
    Sendable (makeElement lib name uri attrib text children) := by
  obtain ⟨ts, h1, h2⟩ := sendable_all children hc
  refine ⟨.mk (contextTag name).toList (((if lib.lxml then [("xacml-context", uri)] else []) ++ attrib).map fun a => (a.1.toList, a.2.toList))
    (text.map String.toList) none ts, ?_, ?_⟩
  · rw [makeElement, asTree, h1]; rfl
  · rw [Printable]
    simp only [hl, Bool.false_eq_true, if_false, List.nil_append]
    refine ⟨⟨_, _, contextTag_clark name, contextNs_ok, hn⟩, ?_, ?_, ?_, printableAll_of ts h2⟩
    · intro a ha'
      obtain ⟨b, hb, rfl⟩ := List.mem_map.1 ha'
      obtain ⟨k1, k2, k3⟩ := ha b hb
      refine ⟨.inr ⟨k1, ?_⟩, k3⟩
      intro h
      have h : b.1.toList = xmlnsName := h
      exact k2 (by rw [← ofList_toList b.1, h]; rfl)
    · rw [List.map_map]
      have : (Prod.fst ∘ fun a : String × String => (a.1.toList, a.2.toList)) = String.toList ∘ Prod.fst := rfl
      rw [this, ← List.map_map]
      rw [List.nodup_iff_pairwise_ne, List.pairwise_map]
      exact (List.nodup_iff_pairwise_ne.1 hnd).imp fun {a b} h h' => h (by rw [← ofList_toList a, h', ofList_toList])
    · intro s hs
      cases text with
      | none => cases hs
      | some x => cases hs; exact ht x rfl

theorem forEach_mem_sent {α} {w : α → Except Exc XNode} {l : List α} {ns : List XNode} (h : forEach w l = .ok ns) :
    ∀ n ∈ ns, ∃ a ∈ l, w a = .ok n := each_mem_right (forEach_ok.1 h)

theorem sendable_attribute {lib : Etree} (hl : lib.lxml = false) {a : Attribute} {n : XNode} (h : writeAttribute lib a = .ok n)
    (hp : PlainAttribute a) : Sendable n := by
  rw [writeAttribute_ok] at h
  obtain ⟨i, dt, ns, h1, h2, h3, rfl⟩ := h
  refine sendable_make hl (written_ncname _ (by simp)).1 ?_ ?_ (by simp) ?_
  · intro b hb
    have hi := hp.1 i (.inl h1)
    have hdt := hp.1 dt (.inr (.inl h2))
    cases hiss : a.issuer with
    | none =>
      rw [hiss] at hb
      simp only [attrAttribs, List.append_nil, List.mem_cons, List.not_mem_nil, or_false] at hb
      rcases hb with rfl | rfl
      · exact ⟨(written_ncname _ (by simp)).1, (written_ncname _ (by simp)).2, hi⟩
      · exact ⟨(written_ncname _ (by simp)).1, (written_ncname _ (by simp)).2, hdt⟩
    | some x =>
      have hx := hp.1 x (.inr (.inr hiss))
      rw [hiss] at hb
      simp only [attrAttribs, List.cons_append, List.nil_append, List.mem_cons, List.not_mem_nil, or_false] at hb
      rcases hb with rfl | rfl | rfl
      · exact ⟨(written_ncname _ (by simp)).1, (written_ncname _ (by simp)).2, hi⟩
      · exact ⟨(written_ncname _ (by simp)).1, (written_ncname _ (by simp)).2, hdt⟩
      · exact ⟨(written_ncname _ (by simp)).1, (written_ncname _ (by simp)).2, hx⟩
  · cases a.issuer <;> simp [attrAttribs]
  · intro c hc
    obtain ⟨v, hv, hw⟩ := forEach_mem_sent h3 c hc
    rw [writeValue_ok] at hw
    obtain ⟨t, ht, rfl⟩ := hw
    exact sendable_make hl (written_ncname _ (by simp)).1 (by simp) (by simp) (fun s hs => hp.2 v hv s (by rw [ht, hs]; rfl)) (by simp)

theorem sendable_attributes {lib : Etree} (hl : lib.lxml = false) {as : List Attribute} {ns : List XNode}
    (h : forEach (writeAttribute lib) as = .ok ns) (hp : ∀ a ∈ as, PlainAttribute a) : ∀ n ∈ ns, Sendable n := by
  intro n hn
  obtain ⟨a, ha, hw⟩ := forEach_mem_sent h n hn
  exact sendable_attribute hl hw (hp a ha)

theorem sendable_part {lib : Etree} (hl : lib.lxml = false) {k : String} (hk : NCName k.toList) {p : Option (List Attribute)} {n : XNode}
    (h : writePart lib k p = .ok n) (hp : ∀ l, p = some l → ∀ a ∈ l, PlainAttribute a) : Sendable n := by
  rw [writePart_ok] at h
  obtain ⟨as, ns, h0, h1, rfl⟩ := h
  exact sendable_make hl hk (by simp) (by simp) (by simp) (sendable_attributes hl h1 (hp as h0))

theorem contentNodes_mem {o : Option Content} {l : List XNode} (h : ContentNodes o l) {c : XNode} (hc : c ∈ l) : o = some (.node c) := by
  cases o with
  | none => cases h; cases hc
  | some k =>
    cases k with
    | node x => cases h; rw [List.mem_singleton.1 hc]
    | other => exact h.elim

theorem sendable_request {lib : Etree} (hl : lib.lxml = false) {r : RequestX} {n : XNode} (h : writeRequest lib r = .ok n)
    (hp : PlainRequest r) : Sendable n := by
  rw [writeRequest_ok] at h
  obtain ⟨ss, rs, a, e, h1, h2, h3, h4, rfl⟩ := h
  obtain ⟨p1, p2, p3, p4⟩ := hp
  refine sendable_make hl (written_ncname _ (by simp)).1 (by simp) (by simp) (by simp) ?_
  intro c hc'
  simp only [List.mem_append, List.mem_cons, List.not_mem_nil, or_false] at hc'
  rcases hc' with (h | h) | rfl | rfl
  · obtain ⟨s, hs, hw⟩ := forEach_mem_sent h1 c h
    rw [writeSubject_ok] at hw
    obtain ⟨ns, h5, rfl⟩ := hw
    exact sendable_make hl (written_ncname _ (by simp)).1 (by simp) (by simp) (by simp) (sendable_attributes hl h5 (p1 s hs))
  · obtain ⟨s, hs, hw⟩ := forEach_mem_sent h2 c h
    rw [writeResource_ok] at hw
    obtain ⟨l, ns, h5, h6, rfl⟩ := hw
    refine sendable_make hl (written_ncname _ (by simp)).1 (by simp) (by simp) (by simp) fun c hc => ?_
    rcases List.mem_append.1 hc with h | h
    · exact (p2 s hs).2 c (contentNodes_mem h5 h)
    · exact sendable_attributes hl h6 (p2 s hs).1 c h
  · exact sendable_part hl (written_ncname _ (by simp)).1 h3 p3
  · exact sendable_part hl (written_ncname _ (by simp)).1 h4 p4

theorem tight_decision (d : Decision) : CharData d.text.toList ∧ trimmed d.text = some d.text ∧ d.text = decisionWord d := by
  have h : ∀ d : Decision, (d.text.toList.all plainChar && d.text.toList.all (· != ']') && (trimmed d.text == some d.text) && (d.text == decisionWord d)) = true := by
    intro d
    cases d <;> decide +kernel
  have h := h d
  simp only [Bool.and_eq_true, beq_iff_eq] at h
  refine ⟨⟨h.1.1.1, fun hb => ?_⟩, h.1.2, h.2⟩
  have := List.all_eq_true.1 h.1.1.2 ']' (hb.subset (by simp))
  simp at this

theorem sendable_response {lib : Etree} (hl : lib.lxml = false) {rs : List ResultX} {n : XNode} (h : writeResponse lib rs = .ok n) :
    Sendable n ∧ ∀ r ∈ n.children, ∀ c ∈ r.children, c.children = [] := by
  rw [writeResponse] at h
  cases h1 : forEach (writeResult lib) rs with
  | error x => rw [h1] at h; cases h
  | ok ns =>
    rw [h1] at h
    cases h
    have hall : ∀ c ∈ ns, Sendable c ∧ ∀ d ∈ c.children, d.children = [] := by
      intro c hc
      obtain ⟨r, hr, hw⟩ := forEach_mem_sent h1 c hc
      rw [writeResult_ok] at hw
      obtain ⟨-, d, -, rfl⟩ := hw
      refine ⟨sendable_make hl (written_ncname _ (by simp)).1 (by simp) (by simp) (by simp) ?_, ?_⟩
      · intro c hc
        rw [List.mem_singleton.1 hc]
        exact sendable_make hl (written_ncname _ (by simp)).1 (by simp) (by simp) (fun s hs => by cases hs; exact (tight_decision d).1) (by simp)
      · intro c hc
        rw [List.mem_singleton.1 (show c ∈ [makeElement lib "Decision" contextNs [] (some d.text) []] from hc)]
        rfl
    exact ⟨sendable_make hl (written_ncname _ (by simp)).1 (by simp) (by simp) (by simp) fun c hc => (hall c hc).1,
      fun r hr => (hall r hr).2⟩

/-! ## Values have no children -/

theorem shallow_attributes {lib : Etree} {as : List Attribute} {ns : List XNode} (h : forEach (writeAttribute lib) as = .ok ns) :
    ∀ n ∈ ns, ∀ v ∈ n.children, v.children = [] := by
  intro n hn v hv
  obtain ⟨a, ha, hw⟩ := forEach_mem_sent h n hn
  rw [writeAttribute_ok] at hw
  obtain ⟨i, dt, vs, h1, h2, h3, rfl⟩ := hw
  obtain ⟨x, hx, hw⟩ := forEach_mem_sent h3 v hv
  rw [writeValue_ok] at hw
  obtain ⟨t, ht, rfl⟩ := hw
  rfl

theorem shallow_request {lib : Etree} {r : RequestX} {n : XNode} (h : writeRequest lib r = .ok n)
    (hc : ∀ s ∈ r.resources, ∀ c, s.content = some (.node c) → c.name ≠ "Attribute") : ValuesShallow n := by
  rw [writeRequest_ok] at h
  obtain ⟨ss, rs, a, e, h1, h2, h3, h4, rfl⟩ := h
  intro p hp
  have hp : p ∈ ss ++ rs ++ [a, e] := hp
  simp only [List.mem_append, List.mem_cons, List.not_mem_nil, or_false] at hp
  have hpart : ∀ (k : String) (x : Option (List Attribute)) (p : XNode), writePart lib k x = .ok p →
      ∀ a ∈ p.children, a.name = "Attribute" → ∀ v ∈ a.children, v.children = [] := by
    intro k x p h
    rw [writePart_ok] at h
    obtain ⟨as, ns, h0, h1, rfl⟩ := h
    exact fun a ha _ => shallow_attributes h1 a ha
  rcases hp with (h | h) | rfl | rfl
  · obtain ⟨s, hs, hw⟩ := forEach_mem_sent h1 p h
    rw [writeSubject_ok] at hw
    obtain ⟨ns, h5, rfl⟩ := hw
    exact fun a ha _ => shallow_attributes h5 a ha
  · obtain ⟨s, hs, hw⟩ := forEach_mem_sent h2 p h
    rw [writeResource_ok] at hw
    obtain ⟨l, ns, h5, h6, rfl⟩ := hw
    intro a ha hn
    rcases List.mem_append.1 (show a ∈ l ++ ns from ha) with h | h
    · exact absurd hn (hc s hs a (contentNodes_mem h5 h))
    · exact shallow_attributes h6 a h
  · exact hpart _ _ _ h3
  · exact hpart _ _ _ h4

/-! ## Writing the trimmed request -/

theorem forEach_map_sent {α} {w : α → Except Exc XNode} {f : α → α} {g : XNode → XNode} {l : List α} {ns : List XNode}
    (h : forEach w l = .ok ns) (hw : ∀ a n, w a = .ok n → w (f a) = .ok (g n)) : forEach w (l.map f) = .ok (ns.map g) := by
  rw [forEach_ok] at h ⊢
  induction l generalizing ns with
  | nil => rw [each_nil] at h; subst h; rfl
  | cons a l ih =>
    obtain ⟨n, k, rfl, h1, h2⟩ := h
    exact ⟨g n, k.map g, rfl, hw a n h1, ih h2⟩

theorem trim_value {lib : Etree} (v : AttrVal) (n : XNode) (h : writeValue lib v = .ok n) :
    writeValue lib (trimmedValue v) = .ok (trimLeaves n) := by
  rw [writeValue_ok] at h ⊢
  obtain ⟨t, h1, rfl⟩ := h
  refine ⟨t.bind trimmed, ?_, trimLeaves_leaf ..⟩
  rw [trimmedValue, h1]
  cases t with
  | none => simpa using h1
  | some s => rfl

theorem trim_attribute {lib : Etree} (a : Attribute) (n : XNode) (h : writeAttribute lib a = .ok n) :
    writeAttribute lib (trimmedAttribute a) = .ok (trimLeaves n) := by
  rw [writeAttribute_ok] at h ⊢
  obtain ⟨i, dt, ns, h1, h2, h3, rfl⟩ := h
  exact ⟨i, dt, ns.map trimLeaves, h1, h2, forEach_map_sent h3 trim_value, trimLeaves_make ..⟩

def trimContent : Content → Content
  | .node n => .node (trimLeaves n)
  | .other => .other

/-- The trimmed request with trimmed contents. -/
def trimAll (r : RequestX) : RequestX :=
  { trimmedRequest r with
    resources := r.resources.map fun s => { attributes := s.attributes.map trimmedAttribute, content := s.content.map trimContent } }

theorem trim_part {lib : Etree} {k : String} {p : Option (List Attribute)} {n : XNode} (h : writePart lib k p = .ok n) :
    writePart lib k (p.map (List.map trimmedAttribute)) = .ok (trimLeaves n) := by
  rw [writePart_ok] at h ⊢
  obtain ⟨as, ns, rfl, h1, rfl⟩ := h
  exact ⟨_, _, rfl, forEach_map_sent h1 trim_attribute, trimLeaves_make ..⟩

theorem trim_request {lib : Etree} {r : RequestX} {n : XNode} (h : writeRequest lib r = .ok n) :
    writeRequest lib (trimAll r) = .ok (trimLeaves n) := by
  rw [writeRequest_ok] at h ⊢
  obtain ⟨ss, rs, a, e, h1, h2, h3, h4, rfl⟩ := h
  refine ⟨ss.map trimLeaves, rs.map trimLeaves, trimLeaves a, trimLeaves e, forEach_map_sent h1 ?_, forEach_map_sent h2 ?_,
    trim_part h3, trim_part h4, ?_⟩
  · intro s n h
    rw [writeSubject_ok] at h ⊢
    obtain ⟨ns, h5, rfl⟩ := h
    exact ⟨_, forEach_map_sent h5 trim_attribute, trimLeaves_make ..⟩
  · intro s n h
    rw [writeResource_ok] at h ⊢
    obtain ⟨l, ns, h5, h6, rfl⟩ := h
    refine ⟨l.map trimLeaves, ns.map trimLeaves, ?_, forEach_map_sent h6 trim_attribute, ?_⟩
    · cases hs : s.content with
      | none => rw [hs] at h5; cases h5; rfl
      | some k =>
        cases k with
        | node x => rw [hs] at h5; cases h5; rfl
        | other => rw [hs] at h5; exact h5.elim
    · rw [trimLeaves_make, List.map_append]
  · rw [trimLeaves_make]
    simp

theorem trim_good_attribute {cm : List (String × AVClass)} {a : Attribute} (h : GoodAttribute .tree cm a) :
    GoodAttribute .tree cm (trimmedAttribute a) := by
  obtain ⟨i, dt, h1, h2, h3, h4⟩ := h
  refine ⟨i, dt, h1, h2, by simpa [trimmedAttribute] using h3, ?_⟩
  intro v hv
  obtain ⟨v, hv', rfl⟩ := List.mem_map.1 hv
  obtain ⟨c, h5, h6, h7, h8⟩ := h4 v hv'
  rcases h8 with h8 | ⟨s, h8, h9, -⟩
  · exact ⟨c, h5, by rw [trimmedValue, h8]; exact h6, by rw [trimmedValue, h8]; exact h7, .inl (by rw [trimmedValue, h8]; exact h8)⟩
  · refine ⟨c, h5, by rw [trimmedValue, h8]; exact h6, by rw [trimmedValue, h8]; exact h7, ?_⟩
    rw [trimmedValue, h8]
    cases ht : trimmed s with
    | none => exact .inl (by simp [ht])
    | some s' => exact .inr ⟨s', by simp [ht], h9, nofun⟩

theorem trim_good {cm : List (String × AVClass)} {r : RequestX} (h : GoodRequest .tree cm r) : GoodRequest .tree cm (trimAll r) := by
  obtain ⟨h1, h2, ⟨l, h3, h3'⟩, ⟨l', h4, h4'⟩⟩ := h
  have hall : ∀ l : List Attribute, (∀ a ∈ l, GoodAttribute .tree cm a) → ∀ a ∈ l.map trimmedAttribute, GoodAttribute .tree cm a := by
    intro l hl a ha
    obtain ⟨b, hb, rfl⟩ := List.mem_map.1 ha
    exact trim_good_attribute (hl b hb)
  refine ⟨?_, ?_, ⟨l.map trimmedAttribute, ?_, hall l h3'⟩, ⟨l'.map trimmedAttribute, ?_, hall l' h4'⟩⟩
  · intro s hs
    obtain ⟨x, hx, rfl⟩ := List.mem_map.1 hs
    exact ⟨(h1 x hx).1, hall _ (h1 x hx).2⟩
  · intro s hs
    obtain ⟨x, hx, rfl⟩ := List.mem_map.1 hs
    refine ⟨hall _ (h2 x hx).1, ?_⟩
    rcases (h2 x hx).2 with h | ⟨n, h5, h6, -⟩
    · left
      show x.content.map trimContent = none
      rw [h]; rfl
    · right
      refine ⟨trimLeaves n, ?_, by rw [trimLeaves_name, h6], rfl⟩
      show x.content.map trimContent = _
      rw [h5]; rfl
  · show r.action.map _ = _
    rw [h3]; rfl
  · show r.environment.map _ = _
    rw [h4]; rfl

theorem trim_same {r r' : RequestX} (h : SameRequest Spaced (trimAll r) r') : SameRequest Respaced (trimmedRequest r) r' := by
  obtain ⟨h1, h2, h3, h4⟩ := h
  refine ⟨h1, h2, h3, ?_⟩
  have h4 : Each _ (r.resources.map fun s => ({ attributes := s.attributes.map trimmedAttribute, content := s.content.map trimContent } : ResourceX)) r'.resources := h4
  show Each _ (r.resources.map fun s => ({ s with attributes := s.attributes.map trimmedAttribute } : ResourceX)) r'.resources
  generalize r.resources = l at h4 ⊢
  generalize r'.resources = l' at h4 ⊢
  induction l generalizing l' with
  | nil => exact h4
  | cons x l ih =>
    obtain ⟨y, ys, rfl, ⟨k1, k2⟩, k3⟩ := h4
    refine ⟨y, ys, rfl, ⟨k1, ?_⟩, ih ys k3⟩
    rcases k2 with ⟨k2, k4⟩ | ⟨c, c', k2, k4, k5⟩
    · left
      refine ⟨?_, k4⟩
      cases hx : x.content with
      | none => rfl
      | some z => simp only [hx] at k2; cases k2
    · right
      cases hx : x.content with
      | none => simp only [hx] at k2; cases k2
      | some z =>
        simp only [hx, Option.map_some] at k2
        cases z with
        | other => cases k2
        | node z =>
          simp only [trimContent, Option.some.injEq, Content.node.injEq] at k2
          subst k2
          exact ⟨z, c', rfl, k4, (respaced_iff z c').2 k5⟩

/-! ## Namespaces of written elements -/

/-- All names are in the namespace of contexts. -/
def ContextOnly (n : XNode) : Prop := ∀ t, asTree n = some t → ∀ u ∈ namespaces t, u = contextNs.toList

theorem namespacesAll_mem : (ts : List PElem) → ∀ u ∈ namespacesAll ts, ∃ t ∈ ts, u ∈ namespaces t
  | [], u, h => by cases h
  | t :: ts, u, h => by
    rw [namespacesAll] at h
    rcases List.mem_append.1 h with h | h
    · exact ⟨t, by simp, h⟩
    · obtain ⟨t', h1, h2⟩ := namespacesAll_mem ts u h
      exact ⟨t', by simp [h1], h2⟩

theorem contextOnly_all : (l : List XNode) → (∀ n ∈ l, ContextOnly n) → ∀ ts, asTrees l = some ts → ∀ u ∈ namespacesAll ts, u = contextNs.toList
  | [], _, ts, h, u, hu => by rw [asTrees] at h; cases h; cases hu
  | n :: l, hn, ts, h, u, hu => by
    rw [asTrees] at h
    cases h1 : asTree n with
    | none => rw [h1] at h; cases h
    | some t =>
      rw [h1] at h
      cases h2 : asTrees l with
      | none => rw [h2] at h; cases h
      | some ts' =>
        rw [h2] at h
        cases h
        rw [namespacesAll] at hu
        rcases List.mem_append.1 hu with hu | hu
        · exact hn n (by simp) t h1 u hu
        · exact contextOnly_all l (fun x hx => hn x (by simp [hx])) ts' h2 u hu

theorem contextOnly_make {lib : Etree} (hl : lib.lxml = false) {name uri : String} (hn : NCName name.toList)
    {attrib : List (String × String)} (ha : ∀ a ∈ attrib, NCName a.1.toList) {text : Option String} {children : List XNode}
    (hc : ∀ c ∈ children, ContextOnly c) : ContextOnly (makeElement lib name uri attrib text children) := by
  intro t ht u hu
  rw [makeElement, asTree] at ht
  cases h1 : asTrees children with
  | none => rw [h1] at ht; cases ht
  | some ts =>
    rw [h1] at ht
    cases ht
    simp only [hl, Bool.false_eq_true, if_false, List.nil_append] at hu
    rw [namespaces] at hu
    rcases List.mem_append.1 hu with hu | hu
    · exfalso
      rw [attribNamespaces] at hu
      obtain ⟨h2, h3⟩ := List.mem_filter.1 hu
      rw [List.map_map] at h2
      obtain ⟨a, h4, rfl⟩ := List.mem_map.1 h2
      have : qnGetNs a.1.toList = [] := qnGetNs_none (ha a h4)
      simp [this] at h3
    · rcases List.mem_cons.1 hu with rfl | hu
      · rw [contextTag_clark, qnGetNs_clark contextNs_ok hn]
      · exact contextOnly_all children hc ts h1 u hu

theorem contextOnly_attribute {lib : Etree} (hl : lib.lxml = false) {a : Attribute} {n : XNode} (h : writeAttribute lib a = .ok n) :
    ContextOnly n := by
  rw [writeAttribute_ok] at h
  obtain ⟨i, dt, ns, h1, h2, h3, rfl⟩ := h
  refine contextOnly_make hl (written_ncname _ (by simp)).1 ?_ ?_
  · intro b hb
    have hk : b.1 = "AttributeId" ∨ b.1 = "DataType" ∨ b.1 = "Issuer" := by
      cases hiss : a.issuer with
      | none => rw [hiss] at hb; simp [attrAttribs] at hb; rcases hb with rfl | rfl <;> simp
      | some x => rw [hiss] at hb; simp [attrAttribs] at hb; rcases hb with rfl | rfl | rfl <;> simp
    rcases hk with h | h | h <;> rw [h] <;> exact (written_ncname _ (by simp)).1
  · intro c hc
    obtain ⟨v, hv, hw⟩ := forEach_mem_sent h3 c hc
    rw [writeValue_ok] at hw
    obtain ⟨t, ht, rfl⟩ := hw
    exact contextOnly_make hl (written_ncname _ (by simp)).1 (by simp) (by simp)

theorem contextOnly_attributes {lib : Etree} (hl : lib.lxml = false) {as : List Attribute} {ns : List XNode}
    (h : forEach (writeAttribute lib) as = .ok ns) : ∀ n ∈ ns, ContextOnly n := by
  intro n hn
  obtain ⟨a, ha, hw⟩ := forEach_mem_sent h n hn
  exact contextOnly_attribute hl hw

theorem contextOnly_part {lib : Etree} (hl : lib.lxml = false) {k : String} (hk : NCName k.toList) {p : Option (List Attribute)} {n : XNode}
    (h : writePart lib k p = .ok n) : ContextOnly n := by
  rw [writePart_ok] at h
  obtain ⟨as, ns, h0, h1, rfl⟩ := h
  exact contextOnly_make hl hk (by simp) (contextOnly_attributes hl h1)

theorem contextOnly_request {lib : Etree} (hl : lib.lxml = false) {r : RequestX} {n : XNode} (h : writeRequest lib r = .ok n)
    (hc : NoContent r) : ContextOnly n := by
  rw [writeRequest_ok] at h
  obtain ⟨ss, rs, a, e, h1, h2, h3, h4, rfl⟩ := h
  refine contextOnly_make hl (written_ncname _ (by simp)).1 (by simp) ?_
  intro c hc'
  simp only [List.mem_append, List.mem_cons, List.not_mem_nil, or_false] at hc'
  rcases hc' with (h | h) | rfl | rfl
  · obtain ⟨s, hs, hw⟩ := forEach_mem_sent h1 c h
    rw [writeSubject_ok] at hw
    obtain ⟨ns, h5, rfl⟩ := hw
    exact contextOnly_make hl (written_ncname _ (by simp)).1 (by simp) (contextOnly_attributes hl h5)
  · obtain ⟨s, hs, hw⟩ := forEach_mem_sent h2 c h
    rw [writeResource_ok] at hw
    obtain ⟨l, ns, h5, h6, rfl⟩ := hw
    rw [hc s hs] at h5
    cases h5
    exact contextOnly_make hl (written_ncname _ (by simp)).1 (by simp) (contextOnly_attributes hl h6)
  · exact contextOnly_part hl (written_ncname _ (by simp)).1 h3
  · exact contextOnly_part hl (written_ncname _ (by simp)).1 h4

theorem contextOnly_response {lib : Etree} (hl : lib.lxml = false) {rs : List ResultX} {n : XNode} (h : writeResponse lib rs = .ok n) :
    ContextOnly n := by
  rw [writeResponse] at h
  cases h1 : forEach (writeResult lib) rs with
  | error x => rw [h1] at h; cases h
  | ok ns =>
    rw [h1] at h
    cases h
    refine contextOnly_make hl (written_ncname _ (by simp)).1 (by simp) ?_
    intro c hc
    obtain ⟨r, hr, hw⟩ := forEach_mem_sent h1 c hc
    rw [writeResult_ok] at hw
    obtain ⟨-, d, -, rfl⟩ := hw
    refine contextOnly_make hl (written_ncname _ (by simp)).1 (by simp) ?_
    intro c hc
    rw [List.mem_singleton.1 hc]
    exact contextOnly_make hl (written_ncname _ (by simp)).1 (by simp) (by simp)

/-! ## Sending -/

theorem writer_prefix : NCName "xacml-context".toList ∧ "xacml-context".toList ≠ xmlnsName ∧ "xacml-context".toList ≠ xmlName ∧
    NCName xmlName ∧ xmlName ≠ xmlnsName := by
  have h : (("xacml-context".toList.head?.any nameStartChar && "xacml-context".toList.all nameChar) && ("xacml-context".toList != xmlnsName) &&
    ("xacml-context".toList != xmlName) && (xmlName.head?.any nameStartChar && xmlName.all nameChar) && (xmlName != xmlnsName)) = true := by decide +kernel
  simp only [Bool.and_eq_true, bne_iff_ne] at h
  exact ⟨h.1.1.1.1, h.1.1.1.2, h.1.1.2, h.1.2, h.2⟩

theorem same_key {m : List (Chars × Chars)} (h : (m.map Prod.fst).Nodup) {a b : Chars × Chars} (ha : a ∈ m) (hb : b ∈ m) (hk : a.1 = b.1) :
    a = b := by
  induction m with
  | nil => cases ha
  | cons x m ih =>
    rw [List.map_cons, List.nodup_cons] at h
    rcases List.mem_cons.1 ha with rfl | ha' <;> rcases List.mem_cons.1 hb with rfl | hb'
    · rfl
    · exact absurd (hk ▸ List.mem_map.2 ⟨b, hb', rfl⟩) h.1
    · exact absurd (hk ▸ List.mem_map.2 ⟨a, ha', rfl⟩) h.1
    · exact ih h.2 ha' hb'

theorem writer_good {m : List (Chars × Chars)} (hm : WriterRegistry m) {t : PElem} (ht : ∀ u ∈ namespaces t, u = contextNs.toList) :
    GoodFor t m := by
  obtain ⟨hp1, hp2, hp3, hp4, hp5⟩ := writer_prefix
  have hmem : ∀ x ∈ m.filter (fun x => (xmlUri :: namespaces t).contains x.1), x = (xmlUri, xmlName) ∨ x = (contextNs.toList, "xacml-context".toList) := by
    intro x hx
    obtain ⟨h1, h2⟩ := List.mem_filter.1 hx
    simp only [List.contains_iff_mem, List.mem_cons] at h2
    rcases h2 with h2 | h2
    · exact .inl (same_key hm.keys h1 hm.xml h2)
    · have hx := ht _ h2
      refine .inr ?_
      have := hm.context x.2 (by rw [← Prod.eta x] at h1; rw [hx] at h1; exact h1)
      rw [← Prod.eta x, hx, this]
  have hk : ((m.filter fun x => (xmlUri :: namespaces t).contains x.1).map Prod.fst).Nodup :=
    hm.keys.sublist (List.filter_sublist.map _)
  refine ⟨hk, ?_, ?_, List.mem_filter.2 ⟨hm.xml, by simp⟩⟩
  · rw [List.nodup_iff_pairwise_ne, List.pairwise_map]
    have hk' := List.nodup_iff_pairwise_ne.1 hk
    rw [List.pairwise_map] at hk'
    refine hk'.imp_of_mem ?_
    intro a b ha hb hne heq
    rcases hmem a ha with rfl | rfl <;> rcases hmem b hb with rfl | rfl
    · exact hne rfl
    · exact hp3 heq.symm
    · exact hp3 heq
    · exact hne rfl
  · intro x hx
    rcases hmem x hx with rfl | rfl
    · exact ⟨hp4, hp5⟩
    · exact ⟨hp1, hp2⟩

/-! ## The registry -/

theorem dictSet_fst {m : List (Chars × Chars)} {k v u : Chars} (h : u ∈ (dictSet m k v).map Prod.fst) : u = k ∨ u ∈ m.map Prod.fst := by
  induction m with
  | nil => exact .inl (by simpa [dictSet] using h)
  | cons y m ih =>
    rw [dictSet] at h
    split at h
    · exact .inr (by simpa using h)
    · rw [List.map_cons] at h ⊢
      rcases List.mem_cons.1 h with rfl | h
      · exact .inr (by simp)
      · rcases ih h with h | h
        · exact .inl h
        · exact .inr (by simp only [List.mem_cons]; exact .inr h)

theorem dictSet_keys {m : List (Chars × Chars)} (k v : Chars) (h : (m.map Prod.fst).Nodup) : ((dictSet m k v).map Prod.fst).Nodup := by
  induction m with
  | nil => simp [dictSet]
  | cons y m ih =>
    rw [List.map_cons, List.nodup_cons] at h
    rw [dictSet]
    split
    · rw [List.map_cons, List.nodup_cons]; exact h
    · rename_i hy
      rw [List.map_cons, List.nodup_cons]
      refine ⟨fun hm => ?_, ih h.2⟩
      rcases dictSet_fst hm with hm | hm
      · exact hy (by rw [beq_iff_eq]; exact hm)
      · exact h.1 hm

theorem dictSet_mem {m : List (Chars × Chars)} {k v : Chars} (hn : (m.map Prod.fst).Nodup) {x : Chars × Chars} :
    x ∈ dictSet m k v ↔ x = (k, v) ∨ (x ∈ m ∧ x.1 ≠ k) := by
  induction m with
  | nil => simp [dictSet]
  | cons y m ih =>
    rw [List.map_cons, List.nodup_cons] at hn
    rw [dictSet]
    split
    · rename_i hy
      rw [beq_iff_eq] at hy
      constructor
      · intro h
        rcases List.mem_cons.1 h with rfl | h
        · rw [hy]; exact .inl rfl
        · exact .inr ⟨by simp [h], fun hx => hn.1 (by rw [hy, ← hx]; exact List.mem_map.2 ⟨x, h, rfl⟩)⟩
      · rintro (rfl | ⟨h, hx⟩)
        · rw [hy]; simp
        · rcases List.mem_cons.1 h with rfl | h
          · exact absurd hy hx
          · simp [h]
    · rename_i hy
      rw [List.mem_cons, ih hn.2, List.mem_cons]
      constructor
      · rintro (rfl | h | ⟨h, hx⟩)
        · exact .inr ⟨.inl rfl, fun h => hy (by rw [beq_iff_eq]; exact h)⟩
        · exact .inl h
        · exact .inr ⟨.inr h, hx⟩
      · rintro (h | ⟨h | h, hx⟩)
        · exact .inr (.inl h)
        · exact .inl h
        · exact .inr (.inr ⟨h, hx⟩)

theorem freePrefixes_set {m : List (Chars × Chars)} {k v : Chars} (hn : (m.map Prod.fst).Nodup) (hv : v.head? ≠ some 'n')
    (h : freePrefixes m ≠ []) : freePrefixes (dictSet m k v) ≠ [] := by
  obtain ⟨p, hp⟩ := List.exists_mem_of_ne_nil _ h
  rw [freePrefixes, List.mem_filter] at hp
  refine List.ne_nil_of_mem (a := p) ?_
  rw [freePrefixes, List.mem_filter]
  refine ⟨hp.1, ?_⟩
  have h2 := hp.2
  rw [Bool.not_eq_true', List.contains_eq_mem, decide_eq_false_iff_not] at h2 ⊢
  intro hm
  obtain ⟨x, hx, rfl⟩ := List.mem_map.1 hm
  rcases (dictSet_mem hn).1 hx with rfl | ⟨hx, -⟩
  · obtain ⟨i, -, hi⟩ := List.mem_map.1 hp.1
    simp only at hi
    rw [← hi] at hv
    exact hv rfl
  · exact h2 (List.mem_map.2 ⟨x, hx, rfl⟩)

end Xacml
