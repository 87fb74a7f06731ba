import Mathlib.Data.List.Dedup
import Verif.Props.PrettyPrint
import Verif.Lemmas.PrintLxml

/-!
# C76: pretty printing with lxml
-/
namespace Xacml
open Spec

private theorem prefixText_eq (p : Option Chars) : prefixText p = p.getD "None".toList := by cases p <;> rfl

private theorem prefix_mem {m : List (Chars × Chars)} {u p : Chars} (h : m.lookup u = some p) : (u, p) ∈ m := by
  induction m with
  | nil => cases h
  | cons x xs ih =>
    obtain ⟨v, q⟩ := x
    rw [List.lookup_cons] at h
    by_cases hv : u = v
    · subst hv; simp at h; subst h; exact List.mem_cons_self ..
    · have hb : (u == v) = false := beq_eq_false_iff_ne.2 hv
      rw [hb] at h
      exact List.mem_cons_of_mem _ (ih h)

private theorem prefix_some {m : List (Chars × Chars)} {u p : Chars} (h : (u, p) ∈ m) : ∃ q, m.lookup u = some q := by
  induction m with
  | nil => cases h
  | cons x xs ih =>
    obtain ⟨v, q⟩ := x
    rw [List.lookup_cons]
    by_cases hv : u = v
    · subst hv; exact ⟨q, by simp⟩
    · have hb : (u == v) = false := beq_eq_false_iff_ne.2 hv
      rw [hb]
      rcases List.mem_cons.1 h with h | h
      · exact absurd (congrArg Prod.fst h) hv
      · exact ih h

/-- The registry that has the prefixes of the document. -/
private def registryOf (decls : List (Option Chars × Chars)) : List (Chars × Chars) :=
  ((xmlUri, xmlName) :: decls.map fun d => (d.2, prefixText d.1)).dedup

private theorem mem_registryOf {decls : List (Option Chars × Chars)} {x : Chars × Chars} (h : x ∈ registryOf decls) :
    (x.2, x.1) ∈ (xmlName, xmlUri) :: decls.map fun d => (d.1.getD "None".toList, d.2) := by
  rw [registryOf, List.mem_dedup] at h
  rcases List.mem_cons.1 h with rfl | h
  · exact List.mem_cons_self ..
  · obtain ⟨d, hd, rfl⟩ := List.mem_map.1 h
    exact List.mem_cons_of_mem _ (List.mem_map.2 ⟨d, hd, by rw [prefixText_eq]⟩)

private theorem registryOf_covers {decls : List (Option Chars × Chars)} (h : Consistent decls) : Covers (registryOf decls) decls := by
  intro x hx
  have hm : (x.2, prefixText x.1) ∈ registryOf decls := by
    rw [registryOf, List.mem_dedup]
    exact List.mem_cons_of_mem _ (List.mem_map.2 ⟨x, hx, rfl⟩)
  obtain ⟨q, hq⟩ := prefix_some hm
  have := (h.2 _ (mem_registryOf (prefix_mem hq)) _ (mem_registryOf hm)).2 rfl
  simp only at this
  rw [hq, this]

private theorem registryOf_good {decls : List (Option Chars × Chars)} (h : Consistent decls) (e : PElem) :
    GoodFor e (registryOf decls) := by
  have hn : ((registryOf decls).filter fun x => (xmlUri :: namespaces e).contains x.1).Nodup :=
    (List.nodup_dedup _).filter _
  refine ⟨hn.map_on ?_, hn.map_on ?_, ?_, ?_⟩
  · intro x hx y hy hxy
    have := (h.2 _ (mem_registryOf (List.mem_filter.1 hx).1) _ (mem_registryOf (List.mem_filter.1 hy).1)).2 hxy
    exact Prod.ext hxy this
  · intro x hx y hy hxy
    have := (h.2 _ (mem_registryOf (List.mem_filter.1 hx).1) _ (mem_registryOf (List.mem_filter.1 hy).1)).1 hxy
    exact Prod.ext this hxy
  · intro x hx
    exact h.1 _ (mem_registryOf (List.mem_filter.1 hx).1)
  · refine List.mem_filter.2 ⟨?_, by simp⟩
    rw [registryOf, List.mem_dedup]
    exact List.mem_cons_self ..

/-- C76, with lxml: it succeeds exactly if there are no comments or processing instructions and all names are in
namespaces that are declared around them. -/
theorem C76_lxml_succeeds (outer : List (Option Chars × Chars)) (e : LNode) (indent space : Chars) :
    (∃ out, prettyPrintLxml outer e indent space = .ok out) ↔ (content e).isSome = true ∧ InScope outer e :=
  lxml_succeeds e indent space outer []

/-- C76, with lxml: what is printed is an XML document that says the same as the tree, up to white space around texts;
for documents in which every prefix stands for one namespace and every namespace has one prefix, and with the
restrictions of `C76_reads_partial`. -/
theorem C76_lxml_partial (outer : List (Option Chars × Chars)) (e : LNode) (t : PElem) (he : content e = some t)
    (hp : Printable t) (hs : InScope outer e) (hc : Consistent (outer ++ allDeclarations e)) (indent space : Chars)
    (hi : Blank indent) (hb : Blank space) :
    ∃ doc t', prettyPrintLxml outer e indent space = .ok (indent ++ doc) ∧ IsXml doc t' ∧ SameContent t' t ∧ LeavesTight t' := by
  obtain ⟨out, ho⟩ := (C76_lxml_succeeds outer e indent space).2 ⟨by rw [he]; rfl, hs⟩
  have h : prettyPrint (registryOf (outer ++ allDeclarations e)) t indent space =
      (.ok out, registryOf (outer ++ allDeclarations e)) := by
    rw [prettyPrint, EStateM.run, lxml_same (registryOf_covers hc) _ rfl e indent space outer [] t out (fun x hx => hx) he ho]
  obtain ⟨-, doc, t', rfl, h1, h2, h3⟩ := C76_reads_partial _ t (registryOf_good hc t) hp indent space hi hb out _ h
  exact ⟨doc, t', ho, h1, h2, h3⟩

/-! ## Concrete cases -/

namespace Samples

/-- `<x xmlns="u" xmlns:a="v" a:b="1"><y/>z</x>`. -/
def lxmlDoc : LNode :=
  .elem "{u}x".toList [(none, "u".toList), (some "a".toList, "v".toList)] [("{v}b".toList, "1".toList)] (some " k".toList) none
    [.elem "{u}y".toList [] [] none (some "z".toList) []]

end Samples
open Samples

private theorem ncname_one : ∀ s : Chars, s = "a".toList ∨ s = "b".toList ∨ s = "x".toList ∨ s = "y".toList ∨ s = "None".toList ∨ s = xmlName → NCName s := by
  rintro s (rfl | rfl | rfl | rfl | rfl | rfl) <;> constructor <;> decide

private theorem ns_u : NamespaceOk "u".toList := ⟨by decide, by rfl, by decide⟩
private theorem ns_v : NamespaceOk "v".toList := ⟨by decide, by rfl, by decide⟩

/-- Non-vacuity of `C76_lxml_partial`: a default namespace and a prefixed attribute. -/
example : (∃ t, content lxmlDoc = some t ∧ Printable t) ∧ InScope [] lxmlDoc ∧ Consistent ([] ++ allDeclarations lxmlDoc) ∧
    prettyPrintLxml [] lxmlDoc [] fourSpaces =
      .ok "<None:x xmlns:None=\"u\" xmlns:a=\"v\" a:b=\"1\">k\n    <None:y></None:y>\nz</None:x>".toList := by
  refine ⟨⟨_, rfl, ?_⟩, ?_, ?_, by rfl⟩
  · simp only [Printable, PrintableAll]
    refine ⟨⟨_, "x".toList, rfl, ns_u, ncname_one _ (by simp)⟩, ?_, by decide, ?_,
      ⟨⟨_, "y".toList, rfl, ns_u, ncname_one _ (by simp)⟩, by simp, by decide, by simp [PlainText], trivial⟩, ?_⟩
    · intro a ha
      rw [List.mem_singleton.1 ha]
      exact ⟨.inl ⟨_, "b".toList, rfl, ns_v, ncname_one _ (by simp)⟩, by rfl⟩
    · intro s hs; cases hs; exact ⟨by decide, by decide⟩
    · intro s hs; cases hs; exact ⟨by decide, by decide⟩
  · simp only [lxmlDoc, InScope, InScopeAll]
    refine ⟨?_, ⟨?_, trivial⟩, trivial⟩
    · intro u hu
      have : u ∈ ["v".toList, "u".toList] := hu
      simp only [List.mem_cons, List.not_mem_nil, or_false] at this
      rcases this with rfl | rfl
      · exact ⟨some "a".toList, by rfl⟩
      · exact ⟨none, by rfl⟩
    · intro u hu
      have : u ∈ ["u".toList] := hu
      rw [List.mem_singleton.1 this]
      exact ⟨none, by rfl⟩
  · refine ⟨?_, ?_⟩
    · intro x hx
      have : x ∈ [(xmlName, xmlUri), ("None".toList, "u".toList), ("a".toList, "v".toList)] := hx
      simp only [List.mem_cons, List.not_mem_nil, or_false] at this
      rcases this with rfl | rfl | rfl <;> exact ⟨ncname_one _ (by simp), by decide⟩
    · show ∀ x ∈ [(xmlName, xmlUri), ("None".toList, "u".toList), ("a".toList, "v".toList)],
        ∀ y ∈ [(xmlName, xmlUri), ("None".toList, "u".toList), ("a".toList, "v".toList)], x.1 = y.1 ↔ x.2 = y.2
      decide

/-- C76, violated with lxml: documents with comments, with elements in no namespace, or with `xml:lang` cannot be printed. -/
theorem C76_lxml_violated_fails :
    prettyPrintLxml [] (.elem "{u}x".toList [(none, "u".toList)] [] none none [.other none]) [] fourSpaces = .error .typeError ∧
    prettyPrintLxml [] (.elem "x".toList [] [] none none []) [] fourSpaces = .error .keyError ∧
    prettyPrintLxml [] (.elem "{u}x".toList [(none, "u".toList)] [(clark xmlUri "lang".toList, "en".toList)] none none []) []
      fourSpaces = .error .keyError := ⟨by rfl, by rfl, by rfl⟩

/-- C76, violated with lxml: a second prefix for a namespace is not declared, so the result is not XML.
(`<a:x xmlns:a="u"><b:y xmlns:b="u"/></a:x>`.) -/
theorem C76_lxml_violated_prefix : ∃ (e : LNode) (out : Chars), InScope [] e ∧
    prettyPrintLxml [] e [] fourSpaces = .ok out ∧ ∀ t, ¬ IsXml out t := by
  refine ⟨.elem "{u}x".toList [(some "a".toList, "u".toList)] [] none none
    [.elem "{u}y".toList [(some "b".toList, "u".toList)] [] none none []],
    "<a:x xmlns:a=\"u\">\n    <b:y></b:y>\n</a:x>".toList, ?_, by rfl, ?_⟩
  · simp only [InScope, InScopeAll]
    refine ⟨?_, ⟨?_, trivial⟩, trivial⟩ <;>
    · intro u hu
      have : u ∈ ["u".toList] := hu
      rw [List.mem_singleton.1 this]
      first
        | exact ⟨some "b".toList, by rfl⟩
        | exact ⟨some "a".toList, by rfl⟩
  · have hb : ∀ w, Blank w → w ≠ [] → CharData w := fun w h h' => by
      simpa using charData_mid charData_nil h h' charData_nil
    have hb1 : CharData "\n    ".toList := hb _ (by unfold Blank; decide) (by decide)
    have hb3 : CharData "\n".toList := hb _ (by unfold Blank; decide) (by decide)
    have hq : ∀ p l, NCName p → NCName l → QN.Lexical ⟨some p, l⟩ := fun p l hp hl => ⟨hl, fun q h => by cases h; exact hp⟩
    refine not_isXml (r := .elem ⟨some "a".toList, "x".toList⟩ [(⟨some xmlnsName, "a".toList⟩, "u".toList)] "\n    ".toList
      [.elem ⟨some "b".toList, "y".toList⟩ [] [] [] "\n".toList] []) ?_ (by rfl)
    simp only [Raw.Lexical, LexicalAll]
    refine ⟨hq _ _ (ncname_one _ (by simp)) (ncname_one _ (by simp)), ?_, by decide, hb1,
      ⟨⟨hq _ _ (ncname_one _ (by simp)) (ncname_one _ (by simp)), by simp, by decide, charData_nil, trivial, hb3⟩, trivial⟩, charData_nil⟩
    intro y hy
    rw [List.mem_singleton.1 hy]
    exact ⟨hq _ _ ⟨by decide, by decide⟩ (ncname_one _ (by simp)), by rfl⟩

/-- C76, violated with lxml: with a prefix that is declared again elements change their namespace.
(`<a:x xmlns:a="u"><a:x xmlns:a="v"><a:x xmlns:a="u"/></a:x></a:x>`.) -/
theorem C76_lxml_violated_namespace : ∃ (e : LNode) (t t' : PElem) (out : Chars), InScope [] e ∧ content e = some t ∧ Printable t ∧
    prettyPrintLxml [] e [] fourSpaces = .ok out ∧ IsXml out t' ∧ ¬ SameContent t' t := by
  have hx : NCName "x".toList := ncname_one _ (by simp)
  have ha : NCName "a".toList := ncname_one _ (by simp)
  have hb : ∀ w, Blank w → w ≠ [] → CharData w := fun w h h' => by
    simpa using charData_mid charData_nil h h' charData_nil
  have hb1 : CharData "\n    ".toList := hb _ (by unfold Blank; decide) (by decide)
  have hb2 : CharData "\n        ".toList := hb _ (by unfold Blank; decide) (by decide)
  have hb3 : CharData "\n".toList := hb _ (by unfold Blank; decide) (by decide)
  refine ⟨.elem "{u}x".toList [(some "a".toList, "u".toList)] [] none none
      [.elem "{v}x".toList [(some "a".toList, "v".toList)] [] none none
        [.elem "{u}x".toList [(some "a".toList, "u".toList)] [] none none []]], _,
    .mk "{u}x".toList [] (some "\n    ".toList) (some []) [.mk "{v}x".toList [] (some "\n        ".toList) (some "\n".toList)
      [.mk "{v}x".toList [] (some []) (some "\n    ".toList) []]],
    "<a:x xmlns:a=\"u\">\n    <a:x xmlns:a=\"v\">\n        <a:x></a:x>\n    </a:x>\n</a:x>".toList, ?_, rfl, ?_, by rfl, ?_, ?_⟩
  · simp only [InScope, InScopeAll]
    refine ⟨?_, ⟨?_, ⟨?_, trivial⟩, trivial⟩, trivial⟩
    · intro u hu
      rw [List.mem_singleton.1 (show u ∈ ["u".toList] from hu)]
      exact ⟨some "a".toList, by rfl⟩
    · intro u hu
      rw [List.mem_singleton.1 (show u ∈ ["v".toList] from hu)]
      exact ⟨some "a".toList, by rfl⟩
    · intro u hu
      rw [List.mem_singleton.1 (show u ∈ ["u".toList] from hu)]
      exact ⟨some "a".toList, by rfl⟩
  · simp only [Printable, PrintableAll]
    exact ⟨⟨_, _, rfl, ns_u, hx⟩, by simp, by simp, by simp [PlainText],
      ⟨⟨_, _, rfl, ns_v, hx⟩, by simp, by simp, by simp [PlainText],
        ⟨⟨_, _, rfl, ns_u, hx⟩, by simp, by simp, by simp [PlainText], trivial⟩, by simp [PlainText, PElem.tail]⟩,
      by simp [PlainText, PElem.tail]⟩
  · refine ⟨.elem ⟨some "a".toList, "x".toList⟩ [(⟨some xmlnsName, "a".toList⟩, "u".toList)] "\n    ".toList
      [.elem ⟨some "a".toList, "x".toList⟩ [(⟨some xmlnsName, "a".toList⟩, "v".toList)] "\n        ".toList
        [.elem ⟨some "a".toList, "x".toList⟩ [] [] [] "\n    ".toList] "\n".toList] [], ?_, by rfl, by rfl⟩
    have hq : QN.Lexical ⟨some "a".toList, "x".toList⟩ := ⟨hx, fun p hp => by cases hp; exact ha⟩
    have hd : QN.Lexical ⟨some xmlnsName, "a".toList⟩ := ⟨ha, fun p hp => by cases hp; exact ⟨by decide, by decide⟩⟩
    simp only [Raw.Lexical, LexicalAll]
    refine ⟨hq, ?_, by decide, hb1, ⟨⟨hq, ?_, by decide, hb2, ⟨⟨hq, by simp, by decide, charData_nil, trivial, hb1⟩, trivial⟩, hb3⟩,
      trivial⟩, charData_nil⟩
    · intro y hy; rw [List.mem_singleton.1 hy]; exact ⟨hd, by rfl⟩
    · intro y hy; rw [List.mem_singleton.1 hy]; exact ⟨hd, by rfl⟩
  · intro h
    simp only [SameContent, stripped, strippedAll] at h
    injection h with _ _ _ _ h
    injection h with h
    injection h with _ _ _ _ h
    injection h with h
    injection h with h
    revert h; decide

end Xacml
