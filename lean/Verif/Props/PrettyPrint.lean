import Verif.Lemmas.PrintAlloc
import Verif.Lemmas.PrintFilter

/-!
# C76: pretty printing
-/
namespace Xacml
open Spec

/-- C76: what is printed is an XML document that says the same as the tree, up to white space
around texts; no white space is added to the texts of elements without children; the registry of prefixes is as before. For trees all of whose elements have a
namespace, with no characters that need escapes, and with text only after the last child. -/
theorem C76_reads_partial (m : List (Chars × Chars)) (e : PElem) (hm : GoodFor e m) (he : Printable e) (indent space : Chars)
    (hi : Blank indent) (hs : Blank space) (out : Chars) (m' : List (Chars × Chars))
    (h : prettyPrint m e indent space = (.ok out, m')) :
    m' = m ∧ ∃ doc e', out = indent ++ doc ∧ IsXml doc e' ∧ SameContent e' e ∧ LeavesTight e' := by
  rw [prettyPrint] at h
  cases hr : (printElem indent space [] e).run { nsMap := m, mapped := m.map Prod.snd } with
  | error x s => rw [hr] at h; cases h
  | ok r s =>
    rw [hr] at h
    cases h
    have hr' := local_elem (us := xmlUri :: namespaces e) e (fun u hu => List.mem_cons_of_mem _ hu) indent space [] _ _ _ hr
    have hinv : PInv (PrintState.only (xmlUri :: namespaces e) { nsMap := m, mapped := m.map Prod.snd }) :=
      ⟨hm, fun x hx => List.mem_map.2 ⟨x, (List.mem_filter.1 hx).1, rfl⟩⟩
    obtain ⟨-, -, name, attrs, text, children, hl, hw, hres⟩ := elem_ok e indent space [] _ _ _ hinv he hi hs hr'
    obtain ⟨e', h1, h2, h3⟩ := hres [(xmlName, xmlUri)] (fun u hu => nomatch hu)
    exact ⟨rfl, _, e', hw, ⟨_, hl, rfl, h1⟩, h2, h3⟩

/-- C76: nothing else can be read from it. -/
theorem C76_unambiguous (doc : Chars) (e e' : PElem) (h : IsXml doc e) (h' : IsXml doc e') : e = e' := isXml_unique h h'

private theorem free_eq (m : List (Chars × Chars)) : freeIn (m.map Prod.snd) = freePrefixes m := rfl

/-- C76: it fails only if there are not enough prefixes for the namespaces that have none, whatever
the tree is. -/
theorem C76_succeeds (m : List (Chars × Chars)) (e : PElem) (indent space : Chars) :
    (∃ out, prettyPrint m e indent space = (.ok out, m)) ↔
      ∃ new : List Chars, new.length ≤ (freePrefixes m).length ∧ ∀ u ∈ namespaces e, u ∈ m.map Prod.fst ∨ u ∈ new := by
  have ha := elem_alloc e indent space [] { nsMap := m, mapped := m.map Prod.snd }
  rw [prettyPrint]
  rcases allocAll_cases (namespaces e) { nsMap := m, mapped := m.map Prod.snd } with ⟨new, h1, h2, h3⟩ | ⟨new, h1, h2, h4, h5⟩
  · rw [h3] at ha
    constructor
    · intro _
      exact ⟨new.map Prod.fst, by rw [List.length_map]; exact h1, h2⟩
    · intro _
      cases hr : printElem indent space [] e { nsMap := m, mapped := m.map Prod.snd } with
      | ok r s => exact ⟨r, by rw [EStateM.run, hr]⟩
      | error x s => rw [hr] at ha; cases ha
  · rw [h5] at ha
    constructor
    · rintro ⟨out, h⟩
      cases hr : printElem indent space [] e { nsMap := m, mapped := m.map Prod.snd } with
      | ok r s => rw [hr] at ha; cases ha
      | error x s => rw [EStateM.run, hr] at h; cases h
    · rintro ⟨l, hl, hall⟩
      obtain ⟨u, hu, h6, h7⟩ := h4 l hl
      rcases hall u hu with h | h
      · exact absurd h h6
      · exact absurd h h7

/-- C76, violated: if it fails, every prefix it could find stays in ElementTree's registry. -/
theorem C76_violated_registry (m : List (Chars × Chars)) (e : PElem) (indent space : Chars) (x : PrintExc)
    (m' : List (Chars × Chars)) (h : prettyPrint m e indent space = (.error x, m')) :
    x = .keyError ∧ freePrefixes m' = [] ∧ ∃ new, m' = m ++ new ∧ new.length = (freePrefixes m).length := by
  have ha := elem_alloc e indent space [] { nsMap := m, mapped := m.map Prod.snd }
  rw [prettyPrint] at h
  rcases allocAll_cases (namespaces e) { nsMap := m, mapped := m.map Prod.snd } with ⟨new, h1, h2, h3⟩ | ⟨new, h1, h2, h4, h5⟩
  · rw [h3] at ha
    cases hr : printElem indent space [] e { nsMap := m, mapped := m.map Prod.snd } with
    | ok r s => rw [EStateM.run, hr] at h; cases h
    | error x s => rw [hr] at ha; cases ha
  · rw [h5] at ha
    cases hr : printElem indent space [] e { nsMap := m, mapped := m.map Prod.snd } with
    | ok r s => rw [hr] at ha; cases ha
    | error x' s =>
      rw [hr] at ha
      rw [EStateM.run, hr] at h
      cases ha
      cases h
      refine ⟨rfl, ?_, new, rfl, h1⟩
      rw [← free_eq]
      simpa using h2

/-! ## Concrete cases -/

namespace Samples

/-- ElementTree's registry with one more namespace. -/
def registry : List (Chars × Chars) := [(xmlUri, xmlName), ("u".toList, "a".toList)]

/-- `<x b="1">k<y/>z</x>` in the namespace `u`, the attribute in the namespace `v`. -/
def printed : PElem :=
  .mk "{u}x".toList [("{v}b".toList, "1".toList)] (some " k".toList) none [.mk "{u}y".toList [] none (some "z".toList) []]

/-- A registry in which only one prefix is left. -/
def full : List (Chars × Chars) := (List.range 255).map fun i => (nsName i, nsName i)

/-- Two namespaces. -/
def twoNamespaces : PElem := .mk "{u}x".toList [] none none [.mk "{v}x".toList [] none none []]

end Samples
open Samples

private theorem registry_good : GoodFor printed registry := by
  have : registry.filter (fun x => (xmlUri :: namespaces printed).contains x.1) = registry := by decide
  rw [GoodFor, this]
  exact
  ⟨by decide, by decide, by
    intro x hx
    rcases List.mem_cons.1 hx with rfl | hx
    · exact ⟨⟨by decide, by decide⟩, by decide⟩
    · rw [List.mem_singleton.1 hx]; exact ⟨⟨by decide, by decide⟩, by decide⟩, List.mem_cons_self ..⟩

/-- Non-vacuity of `C76_reads_partial`. -/
example : GoodFor printed registry ∧ Printable printed ∧ Blank fourSpaces ∧
    prettyPrint registry printed [] fourSpaces =
      (.ok "<a:x xmlns:a=\"u\" xmlns:ns0=\"v\" ns0:b=\"1\">k\n    <a:y></a:y>\nz</a:x>".toList, registry) := by
  refine ⟨registry_good, ?_, blank_fourSpaces, by rfl⟩
  have hu : NamespaceOk "u".toList := ⟨by decide, by rfl, by decide⟩
  have hv : NamespaceOk "v".toList := ⟨by decide, by rfl, by decide⟩
  have hn : ∀ s : Chars, s = "x".toList ∨ s = "y".toList ∨ s = "b".toList → NCName s := by
    rintro s (rfl | rfl | rfl) <;> constructor <;> decide
  simp only [printed, Printable, PrintableAll]
  refine ⟨⟨_, _, rfl, hu, hn _ (.inl rfl)⟩, ?_, by decide, ?_, ⟨⟨_, _, rfl, hu, hn _ (.inr (.inl rfl))⟩, ?_, by decide, ?_, trivial⟩, ?_⟩
  · intro a ha
    rw [List.mem_singleton.1 ha]
    exact ⟨.inl ⟨_, _, rfl, hv, hn _ (.inr (.inr rfl))⟩, by rfl⟩
  · intro s hs; cases hs; exact ⟨by decide, by decide⟩
  · intro a ha; cases ha
  · intro s hs; cases hs
  · intro s hs; cases hs; exact ⟨by decide, by decide⟩

/-- C76, violated: texts are not escaped; a text can look like an element. -/
theorem C76_violated_text : ∃ (e e' : PElem) (out : Chars), ¬ SameContent e e' ∧
    prettyPrint registry e [] fourSpaces = (.ok out, registry) ∧ prettyPrint registry e' [] fourSpaces = (.ok out, registry) := by
  refine ⟨.mk "{u}x".toList [] (some "k\n    <a:y></a:y>\nb".toList) none [],
    .mk "{u}x".toList [] (some "k".toList) none [.mk "{u}y".toList [] none (some "b".toList) []],
    "<a:x xmlns:a=\"u\">k\n    <a:y></a:y>\nb</a:x>".toList, ?_, by rfl, by rfl⟩
  intro h
  simp only [SameContent, stripped, strippedAll] at h
  injection h with _ _ _ _ h
  cases h

/-- C76, violated: attribute values are not escaped; a value can look like another attribute. -/
theorem C76_violated_attribute : ∃ (e e' : PElem) (out : Chars), ¬ SameContent e e' ∧
    prettyPrint registry e [] fourSpaces = (.ok out, registry) ∧ prettyPrint registry e' [] fourSpaces = (.ok out, registry) := by
  refine ⟨.mk "{u}x".toList [("b".toList, "1\" c=\"2".toList)] none none [],
    .mk "{u}x".toList [("b".toList, "1".toList), ("c".toList, "2".toList)] none none [],
    "<a:x xmlns:a=\"u\" b=\"1\" c=\"2\"></a:x>".toList, ?_, by rfl, by rfl⟩
  intro h
  simp only [SameContent, stripped] at h
  injection h with _ h
  cases h

/-- C76, violated: text between children is lost. -/
theorem C76_violated_tail : ∃ (e e' : PElem) (out : Chars), ¬ SameContent e e' ∧
    prettyPrint registry e [] fourSpaces = (.ok out, registry) ∧ prettyPrint registry e' [] fourSpaces = (.ok out, registry) := by
  refine ⟨.mk "{u}x".toList [] none none [.mk "{u}y".toList [] none (some "b".toList) [], .mk "{u}z".toList [] none none []],
    .mk "{u}x".toList [] none none [.mk "{u}y".toList [] none none [], .mk "{u}z".toList [] none none []],
    "<a:x xmlns:a=\"u\">\n    <a:y></a:y>\n    <a:z></a:z>\n</a:x>".toList, ?_, by rfl, by rfl⟩
  intro h
  simp only [SameContent, stripped, strippedAll] at h
  injection h with _ _ _ _ h
  injection h with h
  injection h with _ _ _ h
  injection h with h
  cases h

/-- C76, violated: an element without namespace is printed with a prefix for the empty namespace,
which is not XML. -/
theorem C76_violated_no_namespace : ∃ (e : PElem) (out : Chars),
    prettyPrint registry e [] fourSpaces = (.ok out, registry) ∧ ∀ e', ¬ IsXml out e' := by
  refine ⟨.mk "x".toList [] none none [], "<ns0:x xmlns:ns0=\"\"></ns0:x>".toList, by rfl, ?_⟩
  refine not_isXml (r := .elem ⟨some "ns0".toList, "x".toList⟩ [(⟨some xmlnsName, "ns0".toList⟩, [])] [] [] []) ?_ (by rfl)
  simp only [Raw.Lexical, LexicalAll]
  refine ⟨⟨⟨by decide, by decide⟩, ?_⟩, ?_, by decide, charData_nil, trivial, charData_nil⟩
  · intro p hp; cases hp; exact ⟨by decide, by decide⟩
  · intro a ha
    rw [List.mem_singleton.1 ha]
    refine ⟨⟨⟨by decide, by decide⟩, ?_⟩, by rfl⟩
    intro p hp; cases hp; exact ⟨by decide, by decide⟩

/-- C76, violated: with two namespaces under one prefix, which `makeEtreeElement` allows, elements
change their namespace. -/
theorem C76_violated_prefixes : ∃ (m : List (Chars × Chars)) (e e' : PElem) (out : Chars),
    prettyPrint m e [] fourSpaces = (.ok out, m) ∧ Printable e ∧ IsXml out e' ∧ ¬ SameContent e' e := by
  have hu : NamespaceOk "u".toList := ⟨by decide, by rfl, by decide⟩
  have hv : NamespaceOk "v".toList := ⟨by decide, by rfl, by decide⟩
  have hx : NCName "x".toList := by constructor <;> decide
  have ha : NCName "a".toList := by constructor <;> decide
  have hb : ∀ w, Blank w → w ≠ [] → CharData w := fun w h h' => by
    simpa using charData_mid charData_nil h h' charData_nil
  have hb1 : CharData "\n    ".toList := hb _ (by unfold Blank; decide) (by decide)
  have hb2 : CharData "\n        ".toList := hb _ (by unfold Blank; decide) (by decide)
  have hb3 : CharData "\n".toList := hb _ (by unfold Blank; decide) (by decide)
  refine ⟨[("u".toList, "a".toList), ("v".toList, "a".toList)],
    .mk "{u}x".toList [] none none [.mk "{v}x".toList [] none none [.mk "{u}x".toList [] none none []]],
    .mk "{u}x".toList [] (some "\n    ".toList) (some []) [.mk "{v}x".toList [] (some "\n        ".toList) (some "\n".toList)
      [.mk "{v}x".toList [] (some []) (some "\n    ".toList) []]],
    "<a:x xmlns:a=\"u\">\n    <a:x xmlns:a=\"v\">\n        <a:x></a:x>\n    </a:x>\n</a:x>".toList, by rfl, ?_, ?_, ?_⟩
  · simp only [Printable, PrintableAll]
    exact ⟨⟨_, _, rfl, hu, hx⟩, by simp, by simp, by simp [PlainText],
      ⟨⟨_, _, rfl, hv, hx⟩, by simp, by simp, by simp [PlainText],
        ⟨⟨_, _, rfl, hu, hx⟩, by simp, by simp, by simp [PlainText], trivial⟩, by simp [PlainText, PElem.tail]⟩,
      by simp [PlainText, PElem.tail]⟩
  · refine ⟨.elem ⟨some "a".toList, "x".toList⟩ [(⟨some xmlnsName, "a".toList⟩, "u".toList)] "\n    ".toList
      [.elem ⟨some "a".toList, "x".toList⟩ [(⟨some xmlnsName, "a".toList⟩, "v".toList)] "\n        ".toList
        [.elem ⟨some "a".toList, "x".toList⟩ [] [] [] "\n    ".toList] "\n".toList] [], ?_, by rfl, by rfl⟩
    have hq : QN.Lexical ⟨some "a".toList, "x".toList⟩ := ⟨hx, fun p hp => by cases hp; exact ha⟩
    have hd : QN.Lexical ⟨some xmlnsName, "a".toList⟩ := ⟨ha, fun p hp => by cases hp; exact ⟨by decide, by decide⟩⟩
    simp only [Raw.Lexical, LexicalAll]
    refine ⟨hq, ?_, by decide, hb1, ⟨⟨hq, ?_, by decide, hb2, ⟨⟨hq, by simp, by decide, charData_nil, trivial, hb1⟩, trivial⟩, hb3⟩,
      trivial⟩, charData_nil⟩
    · intro y hy; rw [List.mem_singleton.1 hy]; exact ⟨hd, hu.2.1⟩
    · intro y hy; rw [List.mem_singleton.1 hy]; exact ⟨hd, hv.2.1⟩
  · intro h
    simp only [SameContent, stripped, strippedAll] at h
    injection h with _ _ _ _ h
    injection h with h
    injection h with _ _ _ _ h
    injection h with h
    injection h with h
    revert h; decide

private theorem out_of_prefixes {r : Except PrintExc Chars × List (Chars × Chars)}
    (h : (match r.1 with | .error .keyError => r.2.length == 256 | .ok _ => false) = true) :
    ∃ m', r = (.error .keyError, m') ∧ m'.length = 256 := by
  obtain ⟨x | x, m'⟩ := r
  · cases x; exact ⟨m', rfl, by simpa using h⟩
  · cases h

/-- Non-vacuity of `C76_violated_registry`. -/
example : full.length = 255 ∧ ∃ m', prettyPrint full twoNamespaces [] fourSpaces = (.error .keyError, m') ∧ m'.length = 256 :=
  ⟨by simp [full], out_of_prefixes (by decide +kernel)⟩

end Xacml
