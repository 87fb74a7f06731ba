import Verif.Lemmas.Selecting
import Verif.Props.XPath
import Verif.Props.Relevance
import Verif.Props.Sending

/-!
# C89: attribute selectors and the layout of request documents

With the standard library's ElementTree.
-/
namespace Xacml
open Spec

/-- **C89.** A selector whose path looks at texts of elements without children only selects the same texts in two
documents that differ in nothing but the white space (or other text) between elements. -/
theorem C89_select (t t' : PElem) (h : Relaid t t') (hr : TagsOk t) (ss : List Step) (hne : ss ≠ []) (hok : PathOk ss)
    (hl : OnLeaves t ss) : selectText t' (some (pathText ss)) = selectText t (some (pathText ss)) := by
  rw [select_path hr hne hok, select_path (relaid_tagsOk h hr) hne hok, relaid_steps h hr hok hl.1]
  congr 1
  refine List.map_congr_left fun q hq => ?_
  rw [xs_mem_path hr hok] at hq
  obtain ⟨p, hp, hq⟩ := hq
  rw [List.mem_singleton.1 hp] at hq
  exact (relaid_leaf h (hl.2 q hq)).2

private theorem looks_same {t t' : PElem} (h : Relaid t t') (hr : TagsOk t) {p : PolicyNode} (hl : SelectsLeaves t p)
    {r r' : Request} (hd : r'.data = r.data) (hp : r'.ctxHandler = r.ctxHandler)
    (hs : r.attributeSelector = some (selectText t)) (hs' : r'.attributeSelector = some (selectText t')) :
    ∀ l, InPolicy l p → LooksSame r r' l := by
  intro l hin
  cases l with
  | designator cat d => exact .inr ⟨hd, hp⟩
  | selector s =>
    obtain ⟨ss, h1, h2, h3, h4⟩ := hl s hin
    show r.attributeSelector.map (· s.path) = r'.attributeSelector.map (· s.path)
    rw [hs, hs', h3]
    simp only [Option.map_some]
    rw [C89_select t t' h hr ss h1 h2 h4]

private theorem sameRequest_toRequest {R : XNode → XNode → Prop} {x x' : RequestX} (h : SameRequest R x x') (pip : Option Pip)
    (sel : Option XPathEngine) : x'.toRequest pip sel = x.toRequest pip sel := by
  obtain ⟨h1, h2, h3, h4⟩ := h
  have : ∀ {l l' : List ResourceX}, Each (fun a b => b.attributes = a.attributes ∧ ((a.content = none ∧ b.content = none) ∨
      ∃ n n', a.content = some (.node n) ∧ b.content = some (.node n') ∧ R n n')) l l' →
      l'.map (fun r => ({ attributes := r.attributes, content := none } : CtxResource)) = l.map fun r => { attributes := r.attributes, content := none } := by
    intro l l' h
    induction l generalizing l' with
    | nil => rw [each_nil] at h; subst h; rfl
    | cons a l ih =>
      rw [each_cons] at h
      obtain ⟨b, bs, rfl, ⟨k, -⟩, h⟩ := h
      simp only [List.map_cons, ih h, k]
  unfold RequestX.toRequest
  rw [h1, h2, h3, this h4]

private theorem answer_error {env : Env} {lib : Etree} (hl : lib.getchildren = true) {pip pdp} {t : PElem} {w : World}
    (h : ∀ x, ¬ IsRequest env.classMap t.node x) : ∃ e, (answerElement env lib pip pdp t w).1 = .error e := by
  unfold answerElement answerDocument
  cases hx : readRequest lib env.classMap t.node with
  | ok x => exact absurd ((C61_request lib hl ..).1 hx) (h x)
  | error e => exact ⟨e, rfl⟩

/-- **C89.** If all selectors of a policy look at texts of elements without children only, two request documents that
differ in nothing but the white space (or other text) between elements get the same answer, and the context handler is
asked the same; or both are rejected because they are no requests. -/
theorem C89_layout (env : Env) (lib : Etree) (hg : lib.getchildren = true) (pip : Option Pip) (p : PolicyNode)
    (t t' : PElem) (h : Relaid t t') (hr : TagsOk t) (hv : FlatValues t) (hl : SelectsLeaves t p) (w : World) :
    answerElement env lib pip (some p) t' w = answerElement env lib pip (some p) t w ∨
      ((∀ x, ¬ IsRequest env.classMap t.node x) ∧
        ∃ e e', (answerElement env lib pip (some p) t w).1 = .error e ∧ (answerElement env lib pip (some p) t' w).1 = .error e') := by
  by_cases hx : ∃ x, IsRequest env.classMap t.node x
  · obtain ⟨x, hx⟩ := hx
    obtain ⟨x', hx', hs⟩ := request_alike hx (spaced_request (relaid_spaced h) (flat_shallow hr hv))
    left
    have e := (C61_request lib hg env.classMap t.node x).2 hx
    have e' := (C61_request lib hg env.classMap t'.node x').2 hx'
    unfold answerElement
    rw [answer_ok e, answer_ok e', run_bind, run_bind]
    simp only [Option.map_some]
    rw [sameRequest_toRequest hs,
      C68_relevant env p (x.toRequest pip (some (selectText t))) (x.toRequest pip (some (selectText t')))
        (looks_same h hr hl rfl rfl rfl rfl)]
  · have hn : ∀ x, ¬ IsRequest env.classMap t.node x := fun x hx' => hx ⟨x, hx'⟩
    refine .inr ⟨hn, ?_⟩
    obtain ⟨e, he⟩ := answer_error hg (pip := pip) (pdp := some p) (w := w) hn
    have hn' : ∀ x, ¬ IsRequest env.classMap t'.node x := by
      intro x hx'
      obtain ⟨y, hy, -⟩ := request_alike hx' (spaced_request (relaid_spaced (relaid_symm h))
        (flat_shallow (relaid_tagsOk h hr) (relaid_flat h hv)))
      exact hn y hy
    obtain ⟨e', he'⟩ := answer_error hg (pip := pip) (pdp := some p) (w := w) hn'
    exact ⟨e, e', he, he'⟩

/-- **C89.** A client and a server that talk in pretty-printed text, with attribute selectors. The client writes a
request, whose resources may have content, and sends it, with prefixes for all namespaces; the server, whose PDP was
created from a policy document, puts a selector on what it receives and answers, after any history; the client reads
the one decision that the semantics gives the policy for the client's request with trimmed values, with selectors on
the element that the client wrote, texts trimmed. -/
theorem C89_conversation (rd : RdEnv) (fetch : Fetch) (limit : Nat) (source : SourceArg) (n : XNode)
    (pdp : Option PolicyNode) (hload : pdpFromPolicySource rd fetch limit source (.ok n) = .ok pdp)
    (env : Env) (client server : Etree) (hc : client.lxml = false) (hcg : client.getchildren = true)
    (hs : server.lxml = false) (hsg : server.getchildren = true) (pip : Option Pip)
    (hpip : ∀ f, pip = some f → ∀ log log' q, f log q = f log' q) {w : World} (hw : History env.re w)
    (x : RequestX) (hx : GoodRequest .tree env.classMap x) (hp : PlainRequest x)
    (ms : List (Chars × Chars)) (hms : WriterRegistry ms) :
    ∃ p s, pdp = some p ∧ Coherent s ∧ IsDocument rd (RefIn s) n p ∧
      ∃ sent t, writeRequest client x = .ok sent ∧ asTree sent = some t ∧
        ∀ mc received, GoodFor t mc → SentTree mc sent received → TagsOk t → SelectsLeaves (trimmedTree t) p →
          ∃ r d answer got, Spec.Asks (trimmedRequest x) pip (some (selectText (trimmedTree t))) r ∧
            (∀ d', PolicyMeans env r p d' ↔ d' = d) ∧
            (answerElement env server pip pdp received w).1 = .ok answer ∧ Sent ms answer got ∧
            readResponse got = .ok [{ decision := some d }] := by
  obtain ⟨sent, h1, h2⟩ := C88_request_general client server hc hcg hsg env.classMap x hx hp
  obtain ⟨t, ht, hpt⟩ := sendable_request hc h1 hp
  obtain ⟨p, s, h4, h5, h6, -⟩ := C66_end_to_end rd fetch limit source n pdp hload env server hsg pip hpip none sent hw
  refine ⟨p, s, h4, h5, h6, sent, t, h1, ht, fun mc received hmc hsent htags hsel => ?_⟩
  obtain ⟨t0, out, t', k1, k2, k3, rfl⟩ := hsent
  rw [ht] at k1
  cases k1
  have hgood : ∀ t0, asTree sent = some t0 → GoodFor t0 mc := by intro t0 e; rw [ht] at e; cases e; exact hmc
  obtain ⟨x', h7, h8⟩ := h2 mc hgood (parsed t') ⟨t, out, t', ht, k2, k3, rfl⟩
  rw [parsed_node] at h7
  have hrel : Relaid (trimmedTree t) (parsedTree t') := by
    rcases hpp : prettyPrint mc t [] [' ', ' ', ' ', ' '] with ⟨r, m'⟩
    rw [hpp] at k2
    simp only at k2
    subst k2
    obtain ⟨-, doc, e', j1, j2, j3, j4⟩ := C76_reads_partial mc t hmc hpt _ _ blank_nil blank_four out m' hpp
    rw [List.nil_append] at j1
    subst j1
    rw [C76_unambiguous out t' e' k3 j2]
    exact relaid_received j4 j3
  have htags' : TagsOk (trimmedTree t) := trimmed_tagsOk htags
  obtain ⟨p', s', e1, -, -, h9, -⟩ := C66_end_to_end rd fetch limit source n pdp hload env server hsg pip hpip
    (some fun _ => selectText (parsedTree t')) (parsedTree t').node hw
  rw [h4] at e1
  cases e1
  obtain ⟨r', d', answer, h10, h11, h12, h13⟩ := h9 x' ((C61_request server hsg ..).1 h7)
  obtain ⟨rs, hrs⟩ := answered h12
  obtain ⟨got, h14, h15⟩ := response_arrives hs hrs h13 hms
  refine ⟨(trimmedRequest x).toRequest pip (some (selectText (trimmedTree t))), d', answer, got, ⟨rfl, rfl, rfl, rfl, rfl, rfl⟩, ?_, h12, h14,
    (C62_response ..).2 h15⟩
  have hr' : r' = (trimmedRequest x).toRequest pip (some (selectText (parsedTree t'))) := by
    rw [← sameRequest_toRequest h8]
    obtain ⟨⟨a, b, c, d⟩, e, f⟩ := r'
    obtain ⟨i1, i2, i3, i4, i5, i6⟩ := h10
    simp only at i1 i2 i3 i4 i5 i6
    unfold RequestX.toRequest
    rw [i1, i2, i3, i4, i5, i6]
    rfl
  subst hr'
  have hst : ∀ sel, StatelessPip (some ((trimmedRequest x).toRequest pip sel)) := by
    intro sel r hr
    injection hr with hr
    subst hr
    exact hpip
  obtain ⟨base, p0, -, e0, hp0⟩ := (C65_default_finder ..).1 hload
  have hcomp := loaded_complete rd base fetch limit n p0 hp0
  rw [h4] at e0
  cases e0
  obtain ⟨d1, m1, q1⟩ := C64_pdp env _ (hst (some (selectText (parsedTree t')))) p hcomp hw
  obtain ⟨d2, m2, q2⟩ := C64_pdp env _ (hst (some (selectText (trimmedTree t)))) p hcomp hw
  rw [C68_relevant env p _ _ (looks_same hrel htags' hsel (r := (trimmedRequest x).toRequest pip (some (selectText (trimmedTree t))))
    (r' := (trimmedRequest x).toRequest pip (some (selectText (parsedTree t')))) rfl rfl rfl rfl), q1] at q2
  have hd : d1 = d' := (h11 d1).1 ((m1 d1).2 rfl)
  subst hd
  injection q2 with q2
  injection q2 with q2
  injection q2 with q2
  injection q2 with q2
  rw [← q2] at m2
  exact m2

/-- C89: an element that can be printed arrives, if there are prefixes for all its namespaces. -/
theorem C89_arrives (m : List (Chars × Chars)) (n : XNode) (t : PElem) (ht : asTree n = some t) (hp : Printable t)
    (hm : GoodFor t m) (new : List Chars) (hnew : new.length ≤ (freePrefixes m).length)
    (hns : ∀ u ∈ namespaces t, u ∈ m.map Prod.fst ∨ u ∈ new) : ∃ received, SentTree m n received := by
  obtain ⟨out, ho⟩ := (C76_succeeds m t [] [' ', ' ', ' ', ' ']).2 ⟨new, hnew, hns⟩
  obtain ⟨-, doc, e', h7, h8, -⟩ := C76_reads_partial m t hm hp _ _ blank_nil blank_four out m ho
  rw [List.nil_append] at h7
  subst h7
  exact ⟨_, t, out, e', ht, by rw [ho], h8, rfl⟩

/-- **C89.** What the semantics makes of a selector on a document: the values are the texts of the elements the path
names, each once if `//` occurs at most once, and in document order if `//` occurs at most in the last step. It has no
value if one of them has no text, if the data type is not held as text, or if there is none and there must be one. -/
theorem C89_means (t : PElem) (hr : TagsOk t) (ss : List Step) (hne : ss ≠ []) (hok : PathOk ss) (env : Env) (r : Request)
    (s : Selector) (dt : String) (c : AVClass) (hx : r.attributeSelector = some (selectText t))
    (hs : s.path = some (pathText ss)) (hd : s.dataType = some dt) (hc : env.classMap.lookup dt = some c) :
    ∃ found : List (List Nat),
      (∀ q, q ∈ found ↔ PathLeads t ss [] q) ∧
      ((ss.filter (·.isDeep)).length ≤ 1 → found.Nodup) ∧
      ((∀ s ∈ ss.dropLast, s.isDeep = false) → found.Pairwise Before) ∧
      ∀ vs, SelectorMeans env r s vs ↔ (found ≠ [] → c.native = .str) ∧ (∀ q ∈ found, textAt t q ≠ none) ∧
        (s.mustBePresent = true → found ≠ []) ∧ vs = found.map fun q => ⟨c, dt, textAt t q⟩ := by
  obtain ⟨found, h1, h2, h3, h4⟩ := C71_select t hr ss hne hok
  refine ⟨found, h1, h2, h3, fun vs => ?_⟩
  have hstr : ∀ q v, textAt t q = some v → ∃ s, v = .str s := by
    intro q v h
    unfold textAt at h
    split at h
    · cases h; exact ⟨_, rfl⟩
    · cases h
  have hinst : ∀ s, (Native.str s).isInstance c.native = true ↔ c.native = .str := by
    intro s
    cases c.native <;> simp [Native.isInstance]
  constructor
  · rintro ⟨xp, dt', c', ns, e1, e2, e3, e4, e5, e6, rfl⟩
    rw [hx] at e1
    cases e1
    rw [hd] at e2
    cases e2
    rw [hc] at e3
    cases e3
    rw [hs, h4] at e4
    injection e4 with e4
    have hlen : found.length = ns.length := by simpa using congrArg List.length e4
    have htext : ∀ q ∈ found, ∃ n ∈ ns, textAt t q = some n := by
      intro q hq
      have : textAt t q ∈ ns.map some := by rw [← e4]; exact List.mem_map.2 ⟨q, hq, rfl⟩
      obtain ⟨n, hn, e⟩ := List.mem_map.1 this
      exact ⟨n, hn, e.symm⟩
    refine ⟨fun hf => ?_, fun q hq h0 => ?_, fun hm h0 => ?_, ?_⟩
    · obtain ⟨q, hq⟩ := List.exists_mem_of_ne_nil _ hf
      obtain ⟨n, hn, e⟩ := htext q hq
      obtain ⟨s, rfl⟩ := hstr q n e
      exact (hinst s).1 (e5 _ hn)
    · obtain ⟨n, -, e⟩ := htext q hq
      rw [h0] at e
      cases e
    · subst h0
      exact e6 hm (List.length_eq_zero_iff.1 hlen.symm)
    · have : ns.map (fun n => ({ cls := c, dataType := dt, value := some n } : AttrVal)) =
          (ns.map some).map fun o => { cls := c, dataType := dt, value := o } := by
        rw [List.map_map]; rfl
      rw [this, ← e4, List.map_map]
      rfl
  · rintro ⟨k1, k2, k3, rfl⟩
    have hex : ∀ l : List (List Nat), (∀ q ∈ l, textAt t q ≠ none) → ∃ ns : List Native, l.map (textAt t) = ns.map some := by
      intro l hl
      induction l with
      | nil => exact ⟨[], rfl⟩
      | cons q l ih =>
        obtain ⟨ns, hns⟩ := ih fun x hx => hl x (by simp [hx])
        cases hq : textAt t q with
        | none => exact absurd hq (hl q (by simp))
        | some n => exact ⟨n :: ns, by rw [List.map_cons, List.map_cons, hq, hns]⟩
    obtain ⟨ns, hns⟩ := hex found k2
    have hlen : found.length = ns.length := by simpa using congrArg List.length hns
    refine ⟨_, dt, c, ns, hx, hd, hc, by rw [hs, h4, hns], ?_, ?_, ?_⟩
    · intro n hn
      have : some n ∈ found.map (textAt t) := by rw [hns]; exact List.mem_map.2 ⟨n, hn, rfl⟩
      obtain ⟨q, hq, e⟩ := List.mem_map.1 this
      obtain ⟨s, rfl⟩ := hstr q n e
      exact (hinst s).2 (k1 (List.ne_nil_of_mem hq))
    · intro hm h0
      subst h0
      exact k3 hm (List.length_eq_zero_iff.1 hlen)
    · have : ns.map (fun n => ({ cls := c, dataType := dt, value := some n } : AttrVal)) =
          (ns.map some).map fun o => { cls := c, dataType := dt, value := o } := by
        rw [List.map_map]; rfl
      rw [this, ← hns, List.map_map]
      rfl

/-! ## Samples -/

namespace Samples
/-- A request whose resource content has a `v` element; `gap` is between the elements. -/
def contentDoc (gap : Option Chars) : PElem :=
  .mk "Request".toList [] gap none [
    .mk "Resource".toList [] gap gap [.mk "ResourceContent".toList [] gap gap [.mk ['v'] [] (some "1.0".toList) gap []]],
    .mk "Action".toList [] none gap [],
    .mk "Environment".toList [] none gap []]

/-- A match of what a path selects with a string. -/
def selectMatch (path value : String) : Match :=
  { value := some (str value), designator := none
    selector := some { path := some path, dataType := some (xsd "string"), mustBePresent := false }
    func := some (.equal stringClass) }

/-- Denies if the path selects the string; permits otherwise. -/
def selectPolicy (path value : String) : PolicyNode :=
  .policy (hdr .firstApplicable)
    [{ effect := some .deny, condition := none,
       target := some { subjects := [], resources := [{ matches_ := [selectMatch path value] }], actions := [], environments := [] } },
     always .permit]

/-- The decisions in the answer. -/
def decisionsOn (p : PolicyNode) (doc : PElem) : Option (List (Option Decision)) :=
  match (answerElement env plainEtree none (some p) doc w0).1 with
  | .ok n => match readResponse n with
    | .ok rs => some (rs.map (·.decision))
    | .error _ => none
  | .error _ => none
end Samples

open Samples

theorem tagsOk_mk {t as x y cs} (ht : TagName t) (hc : ∀ c ∈ cs, TagsOk c) : TagsOk (.mk t as x y cs) := by
  intro p t' as' x' y' cs' h
  cases p with
  | nil => cases h; exact ht
  | cons i p =>
    rw [elemAt] at h
    cases hi : cs[i]? with
    | none => rw [hi] at h; cases h
    | some c => rw [hi] at h; exact hc c (List.mem_of_getElem? hi) p _ _ _ _ _ h

theorem leafNames_mk {t as x y cs n} (h0 : n.accepts (.mk t as x y cs) [] = true → cs = []) (hc : ∀ c ∈ cs, LeafNames c n) :
    LeafNames (.mk t as x y cs) n := by
  intro q hq
  cases q with
  | nil => rw [h0 hq]; rfl
  | cons i q =>
    unfold NameTest.accepts at hq
    rw [elemAt] at hq
    unfold childrenAt
    rw [elemAt]
    cases hi : cs[i]? with
    | none => rw [hi] at hq; cases hq
    | some c =>
      rw [hi] at hq
      have := hc c (List.mem_of_getElem? hi) q hq
      unfold childrenAt at this
      simp only [Option.bind_some]
      cases he : elemAt c q with
      | none => rfl
      | some e =>
        obtain ⟨t', as', x', y', cs'⟩ := e
        rw [he] at this
        have : cs' = [] := by simpa using this
        subst this
        rfl

private theorem plain_names : ∀ s ∈ ["Request", "Resource", "ResourceContent", "v", "Action", "Environment"], TagName s.toList := by
  intro s hs
  have h : (["Request", "Resource", "ResourceContent", "v", "Action", "Environment"].all fun s =>
      match s.toList with | [] => false | c :: cs => c.isAlpha && cs.all Char.isAlpha) = true := by decide +kernel
  have h := List.all_eq_true.1 h s hs
  cases hl : s.toList with
  | nil => rw [hl] at h; cases h
  | cons c cs =>
    rw [hl] at h
    simp only [Bool.and_eq_true, List.all_eq_true] at h
    exact .inl ⟨c, cs, rfl, .inl h.1, fun d hd => .inl (.inl (h.2 d hd))⟩

private theorem contentDoc_tags (gap : Option Chars) : TagsOk (contentDoc gap) := by
  refine tagsOk_mk (plain_names "Request" (by simp)) ?_
  simp only [List.mem_cons, List.not_mem_nil, or_false]
  rintro c (rfl | rfl | rfl)
  · refine tagsOk_mk (plain_names "Resource" (by simp)) ?_
    simp only [List.mem_cons, List.not_mem_nil, or_false]
    rintro c rfl
    refine tagsOk_mk (plain_names "ResourceContent" (by simp)) ?_
    simp only [List.mem_cons, List.not_mem_nil, or_false]
    rintro c rfl
    exact tagsOk_mk (plain_names "v" (by simp)) (by simp)
  · exact tagsOk_mk (plain_names "Action" (by simp)) (by simp)
  · exact tagsOk_mk (plain_names "Environment" (by simp)) (by simp)

private theorem contentDoc_relaid (gap gap' : Option Chars) : Relaid (contentDoc gap) (contentDoc gap') := by
  have leaf : ∀ t as x y y', Relaid (.mk t as x y []) (.mk t as x y' []) := fun t as x y y' =>
    relaid_iff.2 ⟨x, y', [], rfl, fun _ => rfl, by rw [RelaidAll]⟩
  have one : ∀ {t as x y x' y' c c' l l'}, Relaid c c' → RelaidAll l l' → Relaid (.mk t as x y (c :: l)) (.mk t as x' y' (c' :: l')) :=
    fun hc hl => relaid_iff.2 ⟨_, _, _, rfl, nofun, by rw [RelaidAll]; exact ⟨_, _, rfl, hc, hl⟩⟩
  have nil : RelaidAll [] [] := by rw [RelaidAll]
  refine one (one (one (leaf ..) nil) nil) ?_
  rw [RelaidAll]
  refine ⟨_, _, rfl, leaf .., ?_⟩
  rw [RelaidAll]
  exact ⟨_, _, rfl, leaf .., nil⟩

private theorem contentDoc_flat (gap : Option Chars) : FlatValues (contentDoc gap) := by
  intro i j k t as x y cs h ht
  have : i = 0 ∧ j = 0 := by
    rcases i with _ | _ | _ | i <;> rcases j with _ | j <;> simp [contentDoc, elemAt] at h ⊢
  obtain ⟨rfl, rfl⟩ := this
  cases h
  exact absurd ht (by decide)

private theorem contentDoc_leaf (gap : Option Chars) : LeafNames (contentDoc gap) (.tag ['v']) := by
  refine leafNames_mk (fun h => absurd h (by simp [NameTest.accepts, elemAt])) ?_
  simp only [List.mem_cons, List.not_mem_nil, or_false]
  rintro c (rfl | rfl | rfl)
  · refine leafNames_mk (fun h => absurd h (by simp [NameTest.accepts, elemAt])) ?_
    simp only [List.mem_cons, List.not_mem_nil, or_false]
    rintro c rfl
    refine leafNames_mk (fun h => absurd h (by simp [NameTest.accepts, elemAt])) ?_
    simp only [List.mem_cons, List.not_mem_nil, or_false]
    rintro c rfl
    exact leafNames_mk (fun _ => rfl) (by simp)
  · exact leafNames_mk (fun _ => rfl) (by simp)
  · exact leafNames_mk (fun _ => rfl) (by simp)

/-- The path `//ResourceContent[v='1.0']/v`. -/
private def vPath : List Step :=
  [.deep (.tag "ResourceContent".toList) [.childIs (.tag ['v']) "1.0".toList], .child (.tag ['v']) []]

private theorem selectPolicy_in {l : Reading} {path value : String} (h : InPolicy l (selectPolicy path value)) :
    l = .selector { path := some path, dataType := some (xsd "string"), mustBePresent := false } := by
  have ht : ∀ {t}, InTarget l (some t) → t = ({ subjects := [], resources := [{ matches_ := [selectMatch path value] }], actions := [], environments := [] } : Target) →
      l = .selector { path := some path, dataType := some (xsd "string"), mustBePresent := false } := by
    rintro t ⟨t', ht, c, hc, m, hm, hl⟩ rfl
    cases ht
    simp only [List.nil_append, List.append_nil, List.mem_singleton] at hc
    subst hc
    simp only [List.mem_singleton] at hm
    subst hm
    rcases hl with ⟨cat, d, hd, -⟩ | ⟨s, hs, rfl⟩
    · cases hd
    · cases hs; rfl
  cases h with
  | policyTarget h => obtain ⟨t', ht, -⟩ := h; cases ht
  | rule hr h =>
    simp only [List.mem_cons, List.not_mem_nil, or_false] at hr
    rcases hr with rfl | rfl
    · rcases h with h | ⟨c, e, hc, -⟩
      · exact ht h rfl
      · cases hc
    · rcases h with ⟨t', ht, -⟩ | ⟨c, e, hc, -⟩
      · cases ht
      · cases hc

/-- `C89_layout`: a policy with a selector, and a document with and without white space. -/
example : pathText vPath = "//ResourceContent[v='1.0']/v" ∧ SelectsLeaves (contentDoc none) (selectPolicy (pathText vPath) "1.0") ∧
    Relaid (contentDoc none) (contentDoc (some ['\n'])) ∧ TagsOk (contentDoc none) ∧ FlatValues (contentDoc none) ∧
    decisionsOn (selectPolicy "//ResourceContent[v='1.0']/v" "1.0") (contentDoc none) = some [some .deny] ∧
    decisionsOn (selectPolicy "//ResourceContent[v='1.0']/v" "2.0") (contentDoc none) = some [some .permit] := by
  refine ⟨by decide +kernel, ?_, contentDoc_relaid _ _, contentDoc_tags _, contentDoc_flat _, by decide +kernel, by decide +kernel⟩
  intro s hs
  injection selectPolicy_in hs with hs
  subst hs
  have hv : TagName ['v'] := plain_names "v" (by simp)
  refine ⟨vPath, by simp [vPath], ?_, rfl, ?_, ?_⟩
  · intro s hs
    simp only [vPath, List.mem_cons, List.not_mem_nil, or_false] at hs
    rcases hs with rfl | rfl
    · refine ⟨plain_names "ResourceContent" (by simp), ?_, by simp, fun ⟨pr, hpr, hpos⟩ => ⟨_, rfl⟩⟩
      intro pr hpr
      rw [List.mem_singleton.1 hpr]
      exact ⟨hv, by simp, by decide⟩
    · exact ⟨hv, by simp, by simp, by simp⟩
  · intro s hs
    simp only [vPath, List.mem_cons, List.not_mem_nil, or_false] at hs
    rcases hs with rfl | rfl
    · intro pr hpr
      rw [List.mem_singleton.1 hpr]
      exact contentDoc_leaf _
    · intro pr hpr; cases hpr
  · rintro q ⟨m, -, q', hq', rfl⟩
    have hq' : q ∈ selected (contentDoc none) (.tag ['v']) [] m := hq'
    simp only [selected, List.foldl_nil] at hq'
    exact contentDoc_leaf _ q (List.mem_filter.1 hq').2

/-- **C89, violated.** Without the condition on paths the layout of a request document decides: what is denied if the
document is written without white space between elements is permitted if it has some, because the path compares the
text of an element that has children. -/
theorem C89_violated_predicate : ∃ p t t', Relaid t t' ∧ TagsOk t ∧ FlatValues t ∧
    decisionsOn p t = some [some .deny] ∧ decisionsOn p t' = some [some .permit] :=
  ⟨selectPolicy "//ResourceContent[.='1.0']/v" "1.0", contentDoc none, contentDoc (some ['\n']), contentDoc_relaid _ _,
    contentDoc_tags _, contentDoc_flat _, by decide +kernel, by decide +kernel⟩

/-- **C89, violated.** Likewise if the path selects an element that has children: without white space the selector
fails, because the element has no text, and so does the policy. -/
theorem C89_violated_inner : ∃ p t t', Relaid t t' ∧ TagsOk t ∧ FlatValues t ∧
    decisionsOn p t = some [some .indeterminate] ∧ decisionsOn p t' = some [some .permit] :=
  ⟨selectPolicy "//ResourceContent" "1.0", contentDoc none, contentDoc (some ['\n']), contentDoc_relaid _ _,
    contentDoc_tags _, contentDoc_flat _, by decide +kernel, by decide +kernel⟩

end Xacml
