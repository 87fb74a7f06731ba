import Verif.Lemmas.Sending
import Verif.Props.PrettyPrint
import Verif.Props.EndToEnd
import Verif.Model.NsRegistry

/-!
# C88: requests and responses sent as pretty-printed text

With the standard library's ElementTree on both sides.
-/
namespace Xacml
open Spec

/-- C88: what is received is determined by what is sent. -/
theorem C88_functional (m : List (Chars × Chars)) (n n1 n2 : XNode) (h1 : Sent m n n1) (h2 : Sent m n n2) : n1 = n2 := by
  obtain ⟨t, out, t1, ht, ho, hx, rfl⟩ := h1
  obtain ⟨t', out', t2, ht', ho', hx', rfl⟩ := h2
  rw [ht] at ht'
  cases ht'
  rw [ho] at ho'
  cases ho'
  rw [C76_unambiguous out t1 t2 hx hx']

theorem blank_nil : Blank [] := fun _ h => nomatch h

theorem blank_four : Blank [' ', ' ', ' ', ' '] := by
  intro c hc
  simp at hc
  subst hc
  decide

/-- C88: an element that can be printed is received with the same elements and attributes, and the texts of elements
without children are trimmed. -/
theorem C88_respaced (m : List (Chars × Chars)) (n n' : XNode) (hn : Sendable n) (hm : ∀ t, asTree n = some t → GoodFor t m)
    (h : Sent m n n') : Respaced n n' := by
  obtain ⟨t, h1, h2⟩ := hn
  obtain ⟨t0, out, t', h4, h5, h6, rfl⟩ := h
  rw [h1] at h4
  cases h4
  rcases hp : prettyPrint m t [] [' ', ' ', ' ', ' '] with ⟨r, m'⟩
  rw [hp] at h5
  simp only at h5
  subst h5
  obtain ⟨-, doc, e', h7, h8, h9, h10⟩ := C76_reads_partial m t (hm t h1) h2 _ _ blank_nil blank_four out m' hp
  rw [List.nil_append] at h7
  subst h7
  rw [C76_unambiguous out t' e' h6 h8]
  exact respaced_of n t e' h1 h10 h9

private theorem sent_exists {m : List (Chars × Chars)} {n : XNode} (hn : Sendable n) (hm : ∀ t, asTree n = some t → GoodFor t m)
    (hc : ContextOnly n) (hf : freePrefixes m ≠ []) : ∃ n', Sent m n n' := by
  obtain ⟨t, h1, h2⟩ := hn
  obtain ⟨out, ho⟩ := (C76_succeeds m t [] [' ', ' ', ' ', ' ']).2 
    ⟨[contextNs.toList], by cases hm : freePrefixes m with | nil => exact absurd hm hf | cons _ _ => simp,
      fun u hu => .inr (by rw [hc t h1 u hu]; simp)⟩
  obtain ⟨-, doc, e', h7, h8, -⟩ := C76_reads_partial m t (hm t h1) h2 _ _ blank_nil blank_four out m ho
  rw [List.nil_append] at h7
  subst h7
  exact ⟨parsed e', t, out, e', h1, by rw [ho], h8, rfl⟩

private theorem content_name {cm : List (String × AVClass)} {r : RequestX} (hg : GoodRequest .tree cm r) :
    ∀ s ∈ r.resources, ∀ c, s.content = some (.node c) → c.name ≠ "Attribute" := by
  intro s hs c hc
  rcases (hg.2.1 s hs).2 with h | ⟨n, h1, h2, -⟩
  · rw [hc] at h; cases h
  · rw [hc] at h1; cases h1; rw [h2]; decide

/-- **C88.** A request that could be handed over as a tree, in which nothing needs escapes, is written. If it is sent
with a registry that has distinct prefixes for its namespaces, what is received is read as the same request with
trimmed values; contents of resources may have got white space between elements. -/
theorem C88_request_general (lib lib' : Etree) (hl : lib.lxml = false) (hg : lib.getchildren = true) (hg' : lib'.getchildren = true)
    (cm : List (String × AVClass)) (r : RequestX) (hr : GoodRequest .tree cm r) (hp : PlainRequest r) :
    ∃ n, writeRequest lib r = .ok n ∧ ∀ m, (∀ t, asTree n = some t → GoodFor t m) → ∀ n', Sent m n n' →
      ∃ r', readRequest lib' cm n' = .ok r' ∧ SameRequest Respaced (trimmedRequest r) r' := by
  obtain ⟨n, hw, -⟩ := (C51_partial .tree lib hg cm r).2 hr
  refine ⟨n, hw, fun m hm n' hs => ?_⟩
  have hrs := (respaced_iff n n').1 (C88_respaced m n n' (sendable_request hl hw hp) hm hs)
  have hw' := trim_request hw
  have hgt := trim_good hr
  obtain ⟨n0, hw0, hrd⟩ := (C51_partial .tree lib hg cm (trimAll r)).2 hgt
  rw [hw'] at hw0
  cases hw0
  obtain ⟨r', h1, h2⟩ := request_alike ((C61_request lib hg cm _ _).1 hrd) (spaced_request hrs (shallow_request hw' (content_name hgt)))
  exact ⟨r', (C61_request lib' hg' cm n' r').2 h1, trim_same h2⟩

private theorem sameRequest_eq {R : XNode → XNode → Prop} {r r' : RequestX} (h : SameRequest R r r') (hc : NoContent r) : r' = r := by
  obtain ⟨h1, h2, h3, h4⟩ := h
  obtain ⟨s, rs, a, e⟩ := r
  obtain ⟨s', rs', a', e'⟩ := r'
  simp only at h1 h2 h3 h4
  subst h1 h2 h3
  have hc' : ∀ s ∈ rs, s.content = none := hc
  clear hc
  have : rs' = rs := by
    induction rs generalizing rs' with
    | nil => rw [each_nil] at h4; exact h4
    | cons x rs ih =>
      rw [each_cons] at h4
      obtain ⟨y, ys, rfl, ⟨k1, k2⟩, k3⟩ := h4
      rw [ih ys k3 fun s hs => hc' s (by simp [hs])]
      congr 1
      have hx := hc' x (by simp)
      rcases k2 with ⟨-, k2⟩ | ⟨c, c', k2, -⟩
      · cases x; cases y; simp only at k1 k2 hx; rw [k1, k2, hx]
      · rw [hx] at k2; cases k2
  rw [this]

/-- **C88.** A request without resource content, in which nothing needs escapes, is written, printed, parsed and read;
what is read is the request with trimmed values. -/
theorem C88_request (lib lib' : Etree) (hl : lib.lxml = false) (hg : lib.getchildren = true) (hg' : lib'.getchildren = true)
    (cm : List (String × AVClass)) (r : RequestX) (hr : GoodRequest .tree cm r) (hp : PlainRequest r) (hc : NoContent r)
    (m : List (Chars × Chars)) (hm : WriterRegistry m) :
    ∃ n n', writeRequest lib r = .ok n ∧ Sent m n n' ∧ readRequest lib' cm n' = .ok (trimmedRequest r) := by
  obtain ⟨n, hw, h⟩ := C88_request_general lib lib' hl hg hg' cm r hr hp
  have hco := contextOnly_request hl hw hc
  have hgood : ∀ t, asTree n = some t → GoodFor t m := fun t ht => writer_good hm (hco t ht)
  obtain ⟨n', hs⟩ := sent_exists (sendable_request hl hw hp) hgood hco hm.free
  obtain ⟨r', h1, h2⟩ := h m hgood n' hs
  have hc' : NoContent (trimmedRequest r) := by
    intro s hs
    obtain ⟨x, hx, rfl⟩ := List.mem_map.1 hs
    exact hc x hx
  rw [sameRequest_eq h2 hc'] at h1
  exact ⟨n, n', hw, hs, h1⟩

private theorem response_respaced {n n' : XNode} {rs : List ResultX} (h : IsResponse n rs) (hr : Respaced n n')
    (hs : ∀ r ∈ n.children, ∀ c ∈ r.children, c.children = []) : IsResponse n' rs := by
  have hr := (respaced_iff n n').1 hr
  have hel : ∀ x : XNode, elems (trimLeaves x) = (elems x).map trimLeaves := by
    intro x
    rw [elems, elems, trimLeaves_children]
    generalize x.children = l
    induction l with
    | nil => rfl
    | cons a l ih => cases a <;> simp [List.filter_cons, trimLeaves, XNode.isElem, ih]
  have hmap : ∀ {β} {P P' : XNode → β → Prop} {l : List XNode} {bs : List β}, Each P l bs → (∀ a ∈ l, ∀ b, P a b → P' (trimLeaves a) b) →
      Each P' (l.map trimLeaves) bs := by
    intro β P P' l bs h hP
    induction l generalizing bs with
    | nil => exact h
    | cons a l ih =>
      obtain ⟨b, bs, rfl, h1, h2⟩ := h
      exact ⟨b, bs, rfl, hP a (by simp) b h1, ih h2 fun x hx => hP x (by simp [hx])⟩
  have hattr : ∀ (x : XNode) k, (trimLeaves x).attr k = x.attr k := by
    intro x k
    cases x <;> rfl
  have ht : IsResponse (trimLeaves n) rs := by
    refine ⟨by rw [trimLeaves_name, h.1], ?_⟩
    rw [hel]
    refine hmap h.2 ?_
    rintro a ha r ⟨h1, h2, ⟨ds, h3, h3'⟩, h4⟩
    refine ⟨by rw [trimLeaves_name, h1], by rw [hattr, h2], ⟨ds, ?_, h3'⟩, h4⟩
    rw [hel]
    refine hmap h3 ?_
    rintro c hc d ⟨h5, h6⟩
    refine ⟨by rw [trimLeaves_name, h5], ?_⟩
    have := hs a (List.mem_filter.1 ha).1 c (List.mem_filter.1 hc).1
    cases c with
    | other => cases h6
    | elem tag attrib text children =>
      have h6 : text = some (decisionWord d) := h6
      have this : children = [] := this
      subst this h6
      obtain ⟨-, h7, h8⟩ := tight_decision d
      rw [h8] at h7
      exact h7
  have hs' : ∀ r ∈ (trimLeaves n).children, ∀ c ∈ r.children, c.children = [] := by
    intro r hr c hc
    rw [trimLeaves_children] at hr
    obtain ⟨r, hr', rfl⟩ := List.mem_map.1 hr
    rw [trimLeaves_children] at hc
    obtain ⟨c, hc', rfl⟩ := List.mem_map.1 hc
    rw [trimLeaves_children, hs r hr' c hc']
    rfl
  clear h hs
  refine ⟨by rw [spaced_name hr, ht.1], ?_⟩
  refine each_same (Q := fun a a' => Spaced a a' ∧ a ∈ (trimLeaves n).children) ?_ ht.2
    (each_mono_mem (spaced_elems hr) fun a ha b hab => ⟨hab, (List.mem_filter.1 ha).1⟩)
  rintro a a' r ⟨h1, h2, ⟨ds, h3, h3'⟩, h4⟩ ⟨hra, ha⟩
  refine ⟨by rw [spaced_name hra, h1], by rw [spaced_attr hra, h2], ⟨ds, ?_, h3'⟩, h4⟩
  refine each_same (Q := fun c c' => Spaced c c' ∧ c ∈ a.children) ?_ h3
    (each_mono_mem (spaced_elems hra) fun c hc b hcb => ⟨hcb, (List.mem_filter.1 hc).1⟩)
  rintro c c' d ⟨h5, h6⟩ ⟨hrc, hc⟩
  exact ⟨by rw [spaced_name hrc, h5], by rw [spaced_text hrc (hs' a ha c hc), h6]⟩

theorem response_arrives {lib : Etree} (hl : lib.lxml = false) {rs : List ResultX} {n : XNode} (hw : writeResponse lib rs = .ok n)
    {rs' : List ResultX} (hr : IsResponse n rs') {m : List (Chars × Chars)} (hm : WriterRegistry m) :
    ∃ n', Sent m n n' ∧ IsResponse n' rs' := by
  obtain ⟨hse, hsh⟩ := sendable_response hl hw
  have hco := contextOnly_response hl hw
  have hgood : ∀ t, asTree n = some t → GoodFor t m := fun t ht => writer_good hm (hco t ht)
  obtain ⟨n', hs⟩ := sent_exists hse hgood hco hm.free
  exact ⟨n', hs, response_respaced hr (C88_respaced m n n' hse hgood hs) hsh⟩

/-- **C88.** A response all of whose results have a decision and no resource arrives: it is written, printed, parsed
and read, and what is read has the same decisions. -/
theorem C88_response (lib : Etree) (hl : lib.lxml = false) (rs rs' : List ResultX) (hb : Each ResultBack rs rs')
    (m : List (Chars × Chars)) (hm : WriterRegistry m) :
    ∃ n n', writeResponse lib rs = .ok n ∧ Sent m n n' ∧ readResponse n' = .ok rs' := by
  obtain ⟨n, hw, hr⟩ := (C52_back .tree lib rs rs').2 hb
  obtain ⟨n', h1, h2⟩ := response_arrives hl hw ((C62_response n rs').1 hr) hm
  exact ⟨n, n', hw, h1, (C62_response n' rs').2 h2⟩

theorem answered {env : Env} {lib : Etree} {pip sel pdp q} {w : World} {a : XNode}
    (h : (answerDocument env lib pip sel pdp q w).1 = .ok a) : ∃ rs, writeResponse lib rs = .ok a := by
  unfold answerDocument at h
  rw [run_bind] at h
  rcases h1 : EvalM.ofExcept (readRequest lib env.classMap q) w with ⟨x, w1⟩
  rw [h1] at h
  cases x with
  | error e => cases h
  | ok x =>
    simp only at h
    rw [run_bind] at h
    rcases h2 : pdpEvaluate env pdp (some (x.toRequest pip (sel.map fun f => f q))) w1 with ⟨y, w2⟩
    rw [h2] at h
    cases y with
    | error e => cases h
    | ok y => exact ⟨_, h⟩

/-- **C88.** A client and a server that talk in pretty-printed text. The client writes a request and sends it; the
server, whose PDP was created from a policy document, answers after any history; the client reads the one decision that
the semantics gives the policy for the client's request with trimmed values. -/
theorem C88_conversation (rd : RdEnv) (fetch : Fetch) (limit : Nat) (source : SourceArg) (n : XNode)
    (pdp : Option PolicyNode) (hload : pdpFromPolicySource rd fetch limit source (.ok n) = .ok pdp)
    (env : Env) (client server : Etree) (hc : client.lxml = false) (hcg : client.getchildren = true)
    (hs : server.lxml = false) (hsg : server.getchildren = true) (pip : Option Pip)
    (hpip : ∀ f, pip = some f → ∀ log log' q, f log q = f log' q)
    (sel : Option (XNode → XPathEngine)) {w : World} (hw : History env.re w)
    (x : RequestX) (hx : GoodRequest .tree env.classMap x) (hp : PlainRequest x) (hn : NoContent x)
    (mc ms : List (Chars × Chars)) (hmc : WriterRegistry mc) (hms : WriterRegistry ms) :
    ∃ p s, pdp = some p ∧ Coherent s ∧ IsDocument rd (RefIn s) n p ∧
      ∃ sent received r d answer got, writeRequest client x = .ok sent ∧ Sent mc sent received ∧
        Spec.Asks (trimmedRequest x) pip (sel.map fun f => f received) r ∧ (∀ d', PolicyMeans env r p d' ↔ d' = d) ∧
        (answerDocument env server pip sel pdp received w).1 = .ok answer ∧ Sent ms answer got ∧
        readResponse got = .ok [{ decision := some d }] := by
  obtain ⟨sent, received, h1, h2, h3⟩ := C88_request client server hc hcg hsg env.classMap x hx hp hn mc hmc
  obtain ⟨p, s, h4, h5, h6, h7, -⟩ := C66_end_to_end rd fetch limit source n pdp hload env server hsg pip hpip sel received hw
  obtain ⟨r, d, answer, h8, h9, h10, h11⟩ := h7 _ ((C61_request server hsg ..).1 h3)
  obtain ⟨rs, hrs⟩ := answered h10
  obtain ⟨got, h12, h13⟩ := response_arrives hs hrs h11 hms
  exact ⟨p, s, h4, h5, h6, sent, received, r, d, answer, got, h1, h2, h8, h9, h10, h12, (C62_response ..).2 h13⟩

private theorem registry_set {m : List (Chars × Chars)} (h : WriterRegistry m) {k v : Chars} (hk : k ≠ xmlUri)
    (hc : k = contextNs.toList → v = "xacml-context".toList) (hv : v.head? ≠ some 'n') : WriterRegistry (dictSet m k v) := by
  refine ⟨dictSet_keys k v h.keys, (dictSet_mem h.keys).2 (.inr ⟨h.xml, fun h => hk h.symm⟩), ?_, freePrefixes_set h.keys hv h.free⟩
  intro p hp
  rcases (dictSet_mem h.keys).1 hp with hp | ⟨hp, -⟩
  · injection hp with h1 h2
    rw [h2]
    exact hc h1.symm
  · exact h.context p hp

private theorem dictGet_mem_sent {l : List (Nat × List (Chars × Chars))} {r : Nat} {m} (h : dictGet l r = some m) : (r, m) ∈ l := by
  induction l with
  | nil => cases h
  | cons x l ih =>
    rw [dictGet] at h
    split at h
    · rename_i hx; rw [beq_iff_eq] at hx; cases h; rw [← hx]; simp
    · simp [ih h]

private theorem dictSet_mem_sent {l : List (Nat × List (Chars × Chars))} {r : Nat} {m} {x} (h : x ∈ dictSet l r m) : x = (r, m) ∨ x ∈ l := by
  induction l with
  | nil => exact .inl (List.mem_singleton.1 h)
  | cons y l ih =>
    rw [dictSet] at h
    split at h
    · rename_i hy
      rw [beq_iff_eq] at hy
      rcases List.mem_cons.1 h with rfl | h
      · rw [hy]; exact .inl rfl
      · exact .inr (by simp [h])
    · rcases List.mem_cons.1 h with rfl | h
      · exact .inr (by simp)
      · rcases ih h with h | h
        · exact .inl h
        · exact .inr (by simp [h])

private theorem dictErase_mem_sent {l : List (Nat × List (Chars × Chars))} {r : Nat} {x} (h : x ∈ dictErase l r) : x ∈ l := by
  induction l with
  | nil => cases h
  | cons y l ih =>
    rw [dictErase] at h
    split at h
    · simp [ih h]
    · rcases List.mem_cons.1 h with rfl | h
      · simp
      · simp [ih h]

/-- C88: whatever the library does (readers created and deleted, elements of contexts made, in any order) leaves the
registry in order. -/
theorem C88_registry (s : Registry) (hs : WriterRegistry s.current) (hb : ∀ b ∈ s.backups, WriterRegistry b.2) (h : List NsEvent)
    (he : ∀ e ∈ h, (∃ r, e = .newReader r ∨ e = .delReader r) ∨
      e = .makeElement "urn:oasis:names:tc:xacml:2.0:context:schema:os".toList "xacml-context".toList) :
    WriterRegistry (runRegistry s h).current := by
  have key : ∀ (h : List NsEvent) (s : Registry), (∀ e ∈ h, (∃ r, e = .newReader r ∨ e = .delReader r) ∨
      e = .makeElement contextNs.toList "xacml-context".toList) → WriterRegistry s.current → (∀ b ∈ s.backups, WriterRegistry b.2) →
      WriterRegistry (runRegistry s h).current := by
    intro h
    induction h with
    | nil => intro s _ hs _; exact hs
    | cons e h ih =>
      intro s he hs hb
      refine ih (NsEvent.step s e) (fun x hx => he x (by simp [hx])) ?_ ?_
      · rcases he e (by simp) with ⟨r, rfl | rfl⟩ | rfl
        · exact registry_set hs (by decide +kernel) (fun h => absurd h (by decide +kernel)) (by decide +kernel)
        · rw [NsEvent.step]
          cases hd : dictGet s.backups r with
          | none => exact hs
          | some m => exact hb _ (dictGet_mem_sent hd)
        · exact registry_set hs (by decide +kernel) (fun _ => rfl) (by decide +kernel)
      · intro b hb'
        rcases he e (by simp) with ⟨r, rfl | rfl⟩ | rfl
        · rcases dictSet_mem_sent hb' with rfl | h
          · exact hs
          · exact hb b h
        · rw [NsEvent.step] at hb'
          cases hd : dictGet s.backups r with
          | none => rw [hd] at hb'; exact hb b hb'
          | some m => rw [hd] at hb'; exact hb b (dictErase_mem_sent hb')
        · exact hb b hb'
  exact key h s he hs hb

/-! ## Cases -/

namespace Samples

/-- The standard library without lxml. -/
def plainEtree : Etree := { lxml := false, getchildren := true }

/-- `ElementTree._namespace_map` as the standard library has it. -/
def defaultRegistry : List (Chars × Chars) := [
  (xmlUri, xmlName), ("http://www.w3.org/1999/xhtml".toList, "html".toList),
  ("http://www.w3.org/1999/02/22-rdf-syntax-ns#".toList, "rdf".toList), ("http://schemas.xmlsoap.org/wsdl/".toList, "wsdl".toList),
  ("http://www.w3.org/2001/XMLSchema".toList, "xs".toList), ("http://www.w3.org/2001/XMLSchema-instance".toList, "xsi".toList),
  ("http://purl.org/dc/elements/1.1/".toList, "dc".toList)]

/-- An attribute with one string value. -/
def oneAttr (i v : String) : Attribute where
  attributeId := some i
  dataType := some stringClass.identifier
  issuer := none
  values := [{ cls := stringClass, dataType := stringClass.identifier, value := some (.str v) }]

/-- A request of a subject. -/
def sentBy (l : List Attribute) : RequestX where
  subjects := [{ category := some "urn:oasis:names:tc:xacml:1.0:subject-category:access-subject", attributes := l }]
  resources := []
  action := some []
  environment := some []

end Samples

open Samples

/-- `C88_registry`: the registry of a program that starts. -/
example : WriterRegistry defaultRegistry := by
  refine ⟨by decide +kernel, by simp [defaultRegistry], ?_, ?_⟩
  · intro p hp
    exfalso
    have h : (defaultRegistry.any fun x => x.1 == "urn:oasis:names:tc:xacml:2.0:context:schema:os".toList) = false := by decide +kernel
    rw [List.any_eq_false] at h
    exact h _ hp (by simp)
  · refine List.ne_nil_of_mem (a := "ns7".toList) ?_
    rw [freePrefixes, List.mem_filter]
    exact ⟨List.mem_map.2 ⟨7, by simp, by rfl⟩, by decide +kernel⟩

theorem sentBy_good (l : List (String × String)) : GoodRequest .tree stdClassMap (sentBy (l.map fun x => oneAttr x.1 x.2)) := by
  refine ⟨?_, (fun s hs => nomatch hs), ⟨[], rfl, by simp⟩, ⟨[], rfl, by simp⟩⟩
  intro s hs
  rw [List.mem_singleton.1 hs]
  refine ⟨rfl, ?_⟩
  intro a ha
  obtain ⟨x, hx, rfl⟩ := List.mem_map.1 ha
  refine ⟨_, _, rfl, rfl, by simp [oneAttr], ?_⟩
  intro v hv
  rw [List.mem_singleton.1 hv]
  exact ⟨stringClass, by decide +kernel, rfl, rfl, .inr ⟨_, rfl, rfl, nofun⟩⟩

private theorem sentBy_plain (l : List (String × String)) (h : ∀ x ∈ l, AttValue x.1.toList ∧ CharData x.2.toList) :
    PlainRequest (sentBy (l.map fun x => oneAttr x.1 x.2)) := by
  refine ⟨?_, (fun s hs => nomatch hs), ?_, ?_⟩
  · intro s hs a ha
    rw [List.mem_singleton.1 hs] at ha
    obtain ⟨x, hx, rfl⟩ := List.mem_map.1 ha
    refine ⟨?_, ?_⟩
    · rintro s (h1 | h1 | h1)
      · cases h1; exact (h x hx).1
      · cases h1
        show List.all _ _ = true
        decide +kernel
      · cases h1
    · intro v hv s hs
      rw [List.mem_singleton.1 hv] at hs
      cases hs
      exact (h x hx).2
  · intro l hl a ha; cases hl; cases ha
  · intro l hl a ha; cases hl; cases ha

theorem sentBy_noContent (l : List Attribute) : NoContent (sentBy l) := by intro s hs; cases hs

private theorem plain_sample : ∀ s ∈ ["id", "role", "a", "admin", " admin ", "joe"], AttValue s.toList ∧ CharData s.toList := by
  intro s hs
  have h : (["id", "role", "a", "admin", " admin ", "joe"].all fun s => s.toList.all (fun c => plainChar c && c != '"' && c != '\t' && c != '\n') && s.toList.all (· != ']')) = true := by
    decide +kernel
  have h := List.all_eq_true.1 h s hs
  rw [Bool.and_eq_true] at h
  refine ⟨h.1, ?_, fun hb => ?_⟩
  · rw [List.all_eq_true] at h ⊢
    intro c hc
    have := h.1 c hc
    simp only [Bool.and_eq_true] at this
    exact this.1.1.1
  · have := List.all_eq_true.1 h.2 ']' (hb.subset (by simp))
    simp at this

/-- `C88_request`, `C88_conversation`: a request with two attributes, whose values are not changed. -/
example : let r := sentBy [oneAttr "id" "joe", oneAttr "role" "admin"]
    GoodRequest .tree stdClassMap r ∧ PlainRequest r ∧ NoContent r ∧ trimmedRequest r = r :=
  ⟨sentBy_good [("id", "joe"), ("role", "admin")],
    sentBy_plain [("id", "joe"), ("role", "admin")] (by
      intro x hx
      simp only [List.mem_cons, List.not_mem_nil, or_false] at hx
      rcases hx with rfl | rfl
      · exact ⟨(plain_sample "id" (by simp)).1, (plain_sample "joe" (by simp)).2⟩
      · exact ⟨(plain_sample "role" (by simp)).1, (plain_sample "admin" (by simp)).2⟩),
    sentBy_noContent _, by rfl⟩

/-- `C88_response`: two results. -/
example : Each ResultBack [{ decision := some .permit }, { decision := some .deny, status := some "ok" }]
    [{ decision := some .permit }, { decision := some .deny }] :=
  ⟨_, _, rfl, ⟨rfl, _, rfl, rfl⟩, _, _, rfl, ⟨rfl, _, rfl, rfl⟩, rfl⟩

/-- C88, violated: white space around values is lost. -/
theorem C88_violated_space : ∃ r, GoodRequest .tree stdClassMap r ∧ PlainRequest r ∧ NoContent r ∧
    ∀ m, WriterRegistry m → ∀ n n', writeRequest plainEtree r = .ok n → Sent m n n' → readRequest plainEtree stdClassMap n' ≠ .ok r := by
  have hg := sentBy_good [("role", " admin ")]
  have hp : PlainRequest (sentBy [oneAttr "role" " admin "]) := sentBy_plain [("role", " admin ")] (by
    intro x hx
    rw [List.mem_singleton.1 hx]
    exact ⟨(plain_sample "role" (by simp)).1, (plain_sample " admin " (by simp)).2⟩)
  refine ⟨sentBy [oneAttr "role" " admin "], hg, hp, sentBy_noContent _, ?_⟩
  intro m hm n n' h1 h2 h3
  obtain ⟨k, k', h4, h5, h6⟩ := C88_request plainEtree plainEtree rfl rfl rfl stdClassMap _ hg hp (sentBy_noContent _) m hm
  rw [show sentBy ([("role", " admin ")].map fun x => oneAttr x.1 x.2) = sentBy [oneAttr "role" " admin "] from rfl] at h4 h6
  rw [h1] at h4
  cases h4
  rw [C88_functional m n n' k' h2 h5, h6] at h3
  injection h3 with h3
  have h : ((trimmedRequest (sentBy [oneAttr "role" " admin "])).subjects == (sentBy [oneAttr "role" " admin "]).subjects) = true := by
    rw [h3]; simp
  revert h
  decide +kernel

private def contextRegistry : List (Chars × Chars) :=
  [(xmlUri, xmlName), ("urn:oasis:names:tc:xacml:2.0:context:schema:os".toList, "xacml-context".toList)]

/-- A value that looks like the end of the value and another attribute. -/
private def forgedValue : String := "a</xacml-context:AttributeValue>\n        </xacml-context:Attribute>\n        <xacml-context:Attribute AttributeId=\"role\" DataType=\"http://www.w3.org/2001/XMLSchema#string\">\n            <xacml-context:AttributeValue>admin"

/-- The characters that are sent. -/
private def printedRequest (r : RequestX) : Option Chars := do
  let n ← (writeRequest plainEtree r).toOption
  let t ← asTree n
  (prettyPrint contextRegistry t [] [' ', ' ', ' ', ' ']).1.toOption

private theorem printed_sent {r : RequestX} {out : Chars} (h : printedRequest r = some out) : ∃ n t, writeRequest plainEtree r = .ok n ∧
    asTree n = some t ∧ (prettyPrint contextRegistry t [] [' ', ' ', ' ', ' ']).1 = .ok out := by
  rw [printedRequest] at h
  cases h1 : writeRequest plainEtree r with
  | error e => rw [h1] at h; cases h
  | ok n =>
    rw [h1] at h
    cases h2 : asTree n with
    | none => simp [Except.toOption, h2] at h
    | some t =>
      refine ⟨n, t, rfl, h2, ?_⟩
      cases h3 : (prettyPrint contextRegistry t [] [' ', ' ', ' ', ' ']).1 with
      | error e => simp [Except.toOption, h2, h3] at h
      | ok o => simp [Except.toOption, h2, h3] at h; rw [h]

private theorem forged : ∃ m n n', WriterRegistry m ∧ GoodRequest .tree stdClassMap (sentBy [oneAttr "id" forgedValue]) ∧
    NoContent (sentBy [oneAttr "id" forgedValue]) ∧ writeRequest plainEtree (sentBy [oneAttr "id" forgedValue]) = .ok n ∧
    Sent m n n' ∧ readRequest plainEtree stdClassMap n' = .ok (sentBy [oneAttr "id" "a", oneAttr "role" "admin"]) := by
  have hm : WriterRegistry contextRegistry := by
    refine ⟨by decide +kernel, by simp [contextRegistry], ?_, ?_⟩
    · intro p hp
      rcases List.mem_cons.1 hp with hp | hp
      · exact absurd (show "urn:oasis:names:tc:xacml:2.0:context:schema:os".toList = xmlUri from congrArg Prod.fst hp) (by decide +kernel)
      · exact congrArg Prod.snd (List.mem_singleton.1 hp)
    · refine List.ne_nil_of_mem (a := "ns7".toList) ?_
      rw [freePrefixes, List.mem_filter]
      exact ⟨List.mem_map.2 ⟨7, by simp, by rfl⟩, by decide +kernel⟩
  have heq : printedRequest (sentBy [oneAttr "id" forgedValue]) = printedRequest (sentBy [oneAttr "id" "a", oneAttr "role" "admin"]) := by
    decide +kernel
  obtain ⟨k, k', h1, ⟨t, out, t', h2, h3, h4, h5⟩, h6⟩ := C88_request plainEtree plainEtree rfl rfl rfl stdClassMap
    (sentBy ([("id", "a"), ("role", "admin")].map fun x => oneAttr x.1 x.2)) (sentBy_good _) (sentBy_plain _ (by
      intro x hx
      simp only [List.mem_cons, List.not_mem_nil, or_false] at hx
      rcases hx with rfl | rfl
      · exact ⟨(plain_sample "id" (by simp)).1, (plain_sample "a" (by simp)).2⟩
      · exact ⟨(plain_sample "role" (by simp)).1, (plain_sample "admin" (by simp)).2⟩)) (sentBy_noContent _) contextRegistry hm
  have hout : printedRequest (sentBy [oneAttr "id" "a", oneAttr "role" "admin"]) = some out := by
    rw [show sentBy ([("id", "a"), ("role", "admin")].map fun x => oneAttr x.1 x.2) =
      sentBy [oneAttr "id" "a", oneAttr "role" "admin"] from rfl] at h1
    simp [printedRequest, h1, h2, h3, Except.toOption]
  obtain ⟨n, s, h7, h8, h9⟩ := printed_sent (heq.trans hout)
  refine ⟨contextRegistry, n, k', hm, sentBy_good [("id", forgedValue)], sentBy_noContent _, h7,
    ⟨s, out, t', h8, h9, h4, h5⟩, ?_⟩
  rw [h6]
  have : trimmedRequest (sentBy [oneAttr "id" "a", oneAttr "role" "admin"]) = sentBy [oneAttr "id" "a", oneAttr "role" "admin"] := by rfl
  exact congrArg Except.ok this

/-- C88, violated: values are not escaped. A value of one attribute can be such that a request with another attribute
arrives. -/
theorem C88_violated_injection : ∃ v m n n', WriterRegistry m ∧ GoodRequest .tree stdClassMap (sentBy [oneAttr "id" v]) ∧
    NoContent (sentBy [oneAttr "id" v]) ∧ writeRequest plainEtree (sentBy [oneAttr "id" v]) = .ok n ∧ Sent m n n' ∧
    readRequest plainEtree stdClassMap n' = .ok (sentBy [oneAttr "id" "a", oneAttr "role" "admin"]) :=
  ⟨forgedValue, forged⟩

private def adminMatch : Match where
  value := some (str "admin")
  designator := some (.subject, ⟨some "role", some (xsd "string"), none, false⟩)
  selector := none
  func := some (.equal stringClass)

/-- Permits subjects with the role "admin" and denies all others. -/
private def adminsOnly : PolicyNode :=
  .policy (hdr .firstApplicable)
    [{ effect := some .permit, condition := none
       target := some { subjects := [{ matches_ := [adminMatch] }], resources := [], actions := [], environments := [] } },
     { effect := some .deny, target := none, condition := none }]

private def isDecision (x : Except Exc Response) (d : Decision) : Bool :=
  match x with
  | .ok r => decide (r = { results := [Result.createInitialised d] })
  | .error _ => false

private theorem isDecision_eq {x : Except Exc Response} {d : Decision} (h : isDecision x d = true) :
    x = .ok { results := [Result.createInitialised d] } := by
  cases x with
  | ok r => rw [of_decide_eq_true h]
  | error e => cases h

/-- C88, violated: access can be gained this way. The request is denied when it is given to the PDP as it is; sent as
text, it is granted. -/
theorem C88_violated_granted : ∃ policy x m n n' answer, WriterRegistry m ∧ GoodRequest .tree stdClassMap x ∧ NoContent x ∧
    (pdpEvaluate env (some policy) (some (x.toRequest none none)) w0).1 = .ok { results := [Result.createInitialised .deny] } ∧
    writeRequest plainEtree x = .ok n ∧ Sent m n n' ∧
    (answerDocument env plainEtree none none (some policy) n' w0).1 = .ok answer ∧
    readResponse answer = .ok [{ decision := some .permit }] := by
  obtain ⟨m, n, n', h1, h2, h3, h4, h5, h6⟩ := forged
  have hr : (pdpEvaluate env (some adminsOnly)
      (some ((sentBy [oneAttr "id" "a", oneAttr "role" "admin"]).toRequest none none)) w0).1 =
      .ok { results := [Result.createInitialised .permit] } := isDecision_eq (by decide +kernel)
  obtain ⟨answer, ha, hb⟩ := (C52_back .tree plainEtree ([Result.createInitialised .permit].map Result.toX)
    [{ decision := some .permit }]).2 ⟨_, _, rfl, ⟨rfl, _, rfl, rfl⟩, rfl⟩
  refine ⟨adminsOnly, _, m, n, n', answer, h1, h2, h3, isDecision_eq (by decide +kernel), h4, h5, ?_, hb⟩
  unfold answerDocument
  rw [run_bind]
  simp only [EvalM.ofExcept, show env.classMap = stdClassMap from rfl, h6]
  rw [run_bind]
  rcases hp : pdpEvaluate env (some adminsOnly)
    (some ((sentBy [oneAttr "id" "a", oneAttr "role" "admin"]).toRequest none none)) w0 with ⟨y, w'⟩
  rw [hp] at hr
  simp only at hr
  subst hr
  simp only [Option.map_none, hp, ha]
  rfl

end Xacml
