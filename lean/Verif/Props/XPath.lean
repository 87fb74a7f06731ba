import Verif.Lemmas.XPathSelect
import Verif.Spec.Samples
import Verif.Props.Designator

/-!
# C71: attribute selectors pick the elements their path names
-/
namespace Xacml
open Spec

theorem toList_path (ss : List Step) : (pathText ss).toList = ss.flatMap Step.text := by simp [pathText]

theorem path_head {ss : List Step} (hne : ss ≠ []) (rest : Chars) :
    (ss.flatMap Step.text ++ rest).head? = some '/' := by
  cases ss with
  | nil => exact absurd rfl hne
  | cons s ss => obtain ⟨cs, e⟩ := xp_step_slash s; simp [e]

theorem text_at (root : PElem) (q : List Nat) :
    (((root.get? q).bind PElem.text).map fun t => Native.str (String.ofList t)) = textAt root q := by
  unfold textAt
  rw [xs_get]
  cases elemAt root q with
  | none => rfl
  | some e => obtain ⟨t, as, x, y, cs⟩ := e; cases x <;> rfl

theorem select_path {root : PElem} (hr : TagsOk root) {ss : List Step} (hne : ss ≠ []) (h : PathOk ss) :
    selectText root (some (pathText ss)) = .ok ((ss.foldl (stepAll root) [[]]).map (textAt root)) := by
  have h1 := path_head hne []
  rw [List.append_nil] at h1
  simp only [selectText, toList_path, h1, if_true]
  rw [xp_findall_absolute root h hne, xs_path hr h]
  simp only [bind, Except.bind, text_at]

/-- **C71.** A selector with a path such as `/a/{ns}b[@k='v']//c[2]/../*` picks the texts of exactly the elements its
path names, counted from the element the request document starts with: each of them once if `//` occurs at most once,
and in document order if `//` occurs at most in the last step. Positions must come in first predicates, after a tag. -/
theorem C71_select (root : PElem) (hr : TagsOk root) (ss : List Step) (hne : ss ≠ []) (h : PathOk ss) :
    ∃ found : List (List Nat),
      (∀ q, q ∈ found ↔ PathLeads root ss [] q) ∧
      ((ss.filter (·.isDeep)).length ≤ 1 → found.Nodup) ∧
      ((∀ s ∈ ss.dropLast, s.isDeep = false) → found.Pairwise Before) ∧
      selectText root (some (pathText ss)) = .ok (found.map (textAt root)) := by
  have hs : [([] : List Nat)].Pairwise Before := List.pairwise_singleton _ _
  have hl : Level [([] : List Nat)] := by intro x hx y hy; simp at hx hy; subst hx; subst hy; rfl
  refine ⟨ss.foldl (stepAll root) [[]], fun q => ?_, fun hd => xs_once hr h hd hs hl, fun hd => xs_sorted hr h hd hs hl,
    select_path hr hne h⟩
  rw [xs_mem_path hr h]; simp

/-- **C71.** What an attribute selector with such a path evaluates to. With a data type held as text, one value per
named element (each once, and in document order, as above). Elements without text make it fail, and so do other data
types as soon as an element is found. -/
theorem C71_evaluate (root : PElem) (hr : TagsOk root) (ss : List Step) (hne : ss ≠ [])
    (h : PathOk ss) (env : Env) (r : Request) (s : Selector) (dt : String) (c : AVClass)
    (hx : r.attributeSelector = some (selectText root)) (hs : s.path = some (pathText ss))
    (hd : s.dataType = some dt) (hc : env.classMap.lookup dt = some c) :
    ∃ found : List (List Nat),
      (∀ q, q ∈ found ↔ PathLeads root ss [] q) ∧
      ((ss.filter (·.isDeep)).length ≤ 1 → found.Nodup) ∧
      ((∀ s ∈ ss.dropLast, s.isDeep = false) → found.Pairwise Before) ∧
      (found = [] → s.mustBePresent = true → selectorEval env s (some r) = .error .missingAttributeError) ∧
      ((found = [] → s.mustBePresent = false) → c.native = .str → (∀ q ∈ found, textAt root q ≠ none) →
        selectorEval env s (some r) = .ok (.bag { elementType := some c
                                                  items := found.map fun q => ⟨c, dt, textAt root q⟩ })) ∧
      ((∃ q ∈ found, c.native = .str → textAt root q = none) → selectorEval env s (some r) = .error .typeError) := by
  obtain ⟨found, h1, h2, h3, h4⟩ := C71_select root hr ss hne h
  have hstr : ∀ q n, textAt root q = some n → ∃ z, n = .str z := by
    intro q n hq
    unfold textAt at hq
    split at hq
    · injection hq with hq; exact ⟨_, hq.symm⟩
    · cases hq
  rw [← hs] at h4
  refine ⟨found, h1, h2, h3, fun hf hm => ?_, fun hm hn ht => ?_, fun ⟨q, hq, ht⟩ => ?_⟩
  · subst hf
    rw [C55_selector_values env s r _ dt c [] hx hd hc h4 (by simp)]
    simp [hm]
  · have hmap : ∃ ns : List Native, found.map (textAt root) = ns.map some ∧ ∀ n ∈ ns, n.isInstance c.native = true := by
      rw [hn]
      clear h1 h2 h3 h4 hm
      induction found with
      | nil => exact ⟨[], rfl, by simp⟩
      | cons q qs ih =>
        obtain ⟨ns, e, hi⟩ := ih fun x hx => ht x (by simp [hx])
        cases hq : textAt root q with
        | none => exact absurd hq (ht q (by simp))
        | some n =>
          refine ⟨n :: ns, by simp [hq, e], fun m hm => ?_⟩
          rcases List.mem_cons.1 hm with rfl | hm
          · obtain ⟨z, rfl⟩ := hstr q m hq; rfl
          · exact hi m hm
    obtain ⟨ns, e, hi⟩ := hmap
    rw [e] at h4
    rw [C55_selector_values env s r _ dt c ns hx hd hc h4 hi, if_neg]
    · have : (found.map fun q => (⟨c, dt, textAt root q⟩ : AttrVal)) = (found.map (textAt root)).map fun v => ⟨c, dt, v⟩ := by
        simp
      rw [this, e]; simp
    · rintro ⟨rfl, hm'⟩
      have : found = [] := by simpa using e
      rw [hm this] at hm'; cases hm'
  · refine (C55_selector_fails env s r).2.2.1 _ dt c _ hx hd hc h4 ⟨_, List.mem_map_of_mem hq, fun n hn => ?_⟩
    obtain ⟨z, rfl⟩ := hstr q n hn
    cases hcn : c.native with
    | str => rw [ht hcn] at hn; cases hn
    | _ => rfl

private theorem matchLoop_equal (env : Env) (m : Match) (c : AVClass) (lit : AttrVal) (hm : m.value = some lit)
    (hf : m.func = some (.equal c)) (hl : lit.isInst c = true) : ∀ (vs : List AttrVal) (w : World),
    (∀ v ∈ vs, v.isInst c = true) →
    matchLoop env m vs w = (.ok (vs.map fun v => .native (.bool (optNativeEq lit.value v.value))), w)
  | [], w, _ => rfl
  | v :: vs, w, h => by
    have hv := h v (by simp)
    have ih := matchLoop_equal env m c lit hm hf hl vs w fun x hx => h x (by simp [hx])
    have h1 : matchOne env m v w = (.ok (.native (.bool (optNativeEq lit.value v.value))), w) := by
      simp only [matchOne, hf, Func.evaluate, hm, optAv, equalFn, hl, hv, if_true, run_bind, run_ofExcept]
      have : debugCheck env.debug (.native (.bool (optNativeEq lit.value v.value))) = .ok () := by
        cases env.debug <;> rfl
      rw [this]; rfl
    rw [matchLoop, run_bind_ok h1, run_bind_ok ih]; rfl

/-- **C71.** A match element that compares a text with the elements a path names holds exactly if one of them has this
text. It fails if one of them has no text, or if the path names none and some must be present. -/
theorem C71_match (root : PElem) (hr : TagsOk root) (ss : List Step) (hne : ss ≠ []) (h : PathOk ss) (env : Env)
    (r : Request) (m : Match) (s : Selector) (dt text : String) (c : AVClass) (w : World)
    (hx : r.attributeSelector = some (selectText root)) (hs : s.path = some (pathText ss))
    (hd : s.dataType = some dt) (hc : env.classMap.lookup dt = some c) (hn : c.native = .str)
    (hm : m.designator = none ∧ m.selector = some s ∧ m.value = some ⟨c, dt, some (.str text)⟩ ∧ m.func = some (.equal c)) :
    ((∃ q, PathLeads root ss [] q ∧ textAt root q = none) → (m.evaluate env (some r) w).1 = .error .typeError) ∧
    ((∀ q, ¬ PathLeads root ss [] q) → s.mustBePresent = true → (m.evaluate env (some r) w).1 = .error .missingAttributeError) ∧
    ((∀ q, PathLeads root ss [] q → textAt root q ≠ none) → (s.mustBePresent = true → ∃ q, PathLeads root ss [] q) →
      ∃ b, (m.evaluate env (some r) w).1 = .ok b ∧
        (b = true ↔ ∃ q, PathLeads root ss [] q ∧ textAt root q = some (.str text))) := by
  obtain ⟨found, h1, -, -, h2, h3, h4⟩ := C71_evaluate root hr ss hne h env r s dt c hx hs hd hc
  obtain ⟨hm1, hm2, hm3, hm4⟩ := hm
  have hself : ∀ v, AttrVal.isInst ⟨c, dt, v⟩ c = true := by
    intro v; simp [AttrVal.isInst, AVClass.isSub]
  have herr : ∀ e, selectorEval env s (some r) = .error e → (m.evaluate env (some r) w).1 = .error e := by
    intro e he
    simp only [Match.evaluate, Match.requestValues, hm1, hm2, he]
    rfl
  refine ⟨fun ⟨q, hq, ht⟩ => herr _ (h4 ⟨q, (h1 q).2 hq, fun _ => ht⟩), fun hnone hp => herr _ (h2 ?_ hp), fun ht hp => ?_⟩
  · rw [List.eq_nil_iff_forall_not_mem]; exact fun q hq => hnone q ((h1 q).1 hq)
  · have h3 := h3 (by
      intro hf
      cases hb : s.mustBePresent with
      | false => rfl
      | true => obtain ⟨q, hq⟩ := hp hb; rw [← h1, hf] at hq; cases hq) hn fun q hq => ht q ((h1 q).1 hq)
    refine ⟨found.any fun q => textAt root q == some (.str text), ?_, ?_⟩
    · simp only [Match.evaluate, Match.requestValues, hm1, hm2, h3]
      rw [run_bind_ok (w' := w) (run_ofExcept _ w)]
      simp only
      rw [run_bind_ok (matchLoop_equal env m c _ hm3 hm4 (hself _) _ w (by
        intro v hv; obtain ⟨q, -, rfl⟩ := List.mem_map.1 hv; exact hself _))]
      simp only [run_pure, List.map_map, List.any_map]
      congr 1
      have e : (PyVal.truthy ∘ (fun v : AttrVal => PyVal.native (Native.bool (optNativeEq (some (Native.str text)) v.value))) ∘
          fun q => ({ cls := c, dataType := dt, value := textAt root q } : AttrVal)) =
          fun q => textAt root q == some (.str text) := by
        funext q
        rw [Bool.eq_iff_iff]
        simp only [Function.comp, PyVal.truthy, Native.truthy]
        unfold textAt
        split
        · simp only [optNativeEq, Native.eq, beq_iff_eq, Option.some.injEq, Native.str.injEq]
          exact eq_comm
        · simp [optNativeEq]
      rw [e]
    · simp only [List.any_eq_true, beq_iff_eq, h1]

/-- **C71.** A path written without the leading slash, or with a dot before it, selects the same. -/
theorem C71_relative (root : PElem) (n : NameTest) (ps : List Pred) (ss : List Step)
    (h : PathOk (.child n ps :: ss)) :
    selectText root (some (String.ofList (pathText (.child n ps :: ss)).toList.tail)) =
        selectText root (some (pathText (.child n ps :: ss))) ∧
      selectText root (some ("." ++ pathText (.child n ps :: ss))) = selectText root (some (pathText (.child n ps :: ss))) := by
  have h0 : (Step.child n ps).Ok := h _ (by simp)
  have hss : PathOk ss := fun x hx => h x (by simp [hx])
  have habs := xp_findall_absolute root h (by simp)
  have hhead := path_head (ss := .child n ps :: ss) (by simp) []
  rw [List.append_nil] at hhead
  constructor
  · have e : (pathText (.child n ps :: ss)).toList.tail = n.text ++ ps.flatMap Pred.text ++ ss.flatMap Step.text := by
      rw [toList_path]; simp [Step.text]
    obtain ⟨c, cs, hc, hne⟩ := xp_test_head h0.1
    have hh : (n.text ++ ps.flatMap Pred.text ++ ss.flatMap Step.text).head? ≠ some '/' := by
      rw [hc]; simpa using hne
    have hf : findall root (n.text ++ ps.flatMap Pred.text ++ ss.flatMap Step.text) =
        findall root ('.' :: (Step.child n ps :: ss).flatMap Step.text) := by
      rw [habs]
      cases hp : isPath (n.text ++ ps.flatMap Pred.text ++ ss.flatMap Step.text) with
      | true => exact xp_findall_relative root h hp
      | false =>
        have hnil : ps.flatMap Pred.text ++ ss.flatMap Step.text = [] := by
          cases hrest : ps.flatMap Pred.text ++ ss.flatMap Step.text with
          | nil => rfl
          | cons d ds =>
            have : hasPathChar true (d :: ds) = true := by
              rw [← hrest]
              cases ps with
              | nil =>
                cases ss with
                | nil => simp at hrest
                | cons s ss =>
                  obtain ⟨cs', e'⟩ := xp_step_slash s
                  simp [e', hasPathChar]
              | cons p ps => simp [Pred.text, hasPathChar]
            rw [List.append_assoc, hrest, xp_isPath_test h0.1 this] at hp
            cases hp
        have hps : ps = [] := by
          cases ps with
          | nil => rfl
          | cons p ps => simp [Pred.text] at hnil
        have hss0 : ss = [] := by
          cases ss with
          | nil => rfl
          | cons s ss => obtain ⟨cs', e'⟩ := xp_step_slash s; simp [e'] at hnil
        subst hps; subst hss0
        simp only [List.flatMap_nil, List.append_nil] at hp ⊢
        cases n with
        | tag t =>
          rw [NameTest.text] at hp
          rw [NameTest.text, findall, if_neg (by simp [hp])]
          simp only [List.flatMap_cons, List.flatMap_nil, Step.ops, List.map_nil,
            NameTest.childOp, List.append_nil, List.foldl_cons, List.foldl_nil, XOp.select]
          congr 1
          try simp only [List.flatMap_cons, List.flatMap_nil, List.append_nil]
          exact List.filter_congr fun q _ => (xs_test_tag h0.1).symm
        | any => simp [isPath, NameTest.text, hasPathChar] at hp
        | inAny name => simp [isPath, NameTest.text, List.isPrefixOf] at hp
        | allIn ns =>
          have : hasPathChar true (NameTest.allIn ns).text = true := by
            have := xp_hasPath_brace (ns := ns) (rest := ['*']) h0.1.2.1
            simp only [NameTest.text, List.cons_append, List.append_assoc, List.nil_append]
            rw [this]; simp [hasPathChar]
          simp [isPath, this] at hp
    rw [e]
    simp only [selectText, String.toList_ofList, toList_path, hhead, if_true]
    rw [if_neg hh, hf]
  · have e : ("." ++ pathText (.child n ps :: ss)).toList = '.' :: (Step.child n ps :: ss).flatMap Step.text := by
      rw [String.toList_append, toList_path]; rfl
    simp only [selectText, e, toList_path, hhead, if_true, List.head?_cons, Option.some.injEq]
    rw [if_neg (by decide)]

/-! ## What goes wrong -/

namespace XPathSamples

/-- `<Request><a k="1">x<b/><a>y<b>z</b></a></a><a/></Request>` -/
def root : PElem :=
  .mk (chars% "{urn:r}Request") [] none none
    [.mk ['a'] [(['k'], ['1'])] (some ['x']) none
      [.mk ['b'] [] none none [], .mk ['a'] [] (some ['y']) none [.mk ['b'] [] (some ['z']) none []]],
     .mk ['a'] [] none none []]

/-- `<Request><a/><b k="1"/><b/></Request>` -/
def flat : PElem :=
  .mk (chars% "{urn:r}Request") [] none none
    [.mk ['a'] [] none none [], .mk ['b'] [] none none [], .mk ['b'] [(['k'], ['1'])] (some ['z']) none []]

end XPathSamples

private theorem plain_a : PlainName ['a'] := ⟨'a', [], rfl, .inl (by decide), by simp⟩
private theorem plain_b : PlainName ['b'] := ⟨'b', [], rfl, .inl (by decide), by simp⟩
private theorem plain_k : PlainName ['k'] := ⟨'k', [], rfl, .inl (by decide), by simp⟩
private theorem tag_r : TagName (chars% "{urn:r}Request") :=
  .inr ⟨chars% "urn:r", chars% "Request", rfl, ⟨by decide, by decide, by decide⟩,
    'R', chars% "equest", rfl, .inl (by decide), by
      intro d hd
      refine .inl (.inl ?_)
      revert d; decide⟩

/-- The tags at all positions of a list of siblings. -/
private theorem tags_ok {t : Chars} {as : List (Chars × Chars)} {x y : Option Chars} {cs : List PElem} (h : TagName t)
    (hcs : ∀ c ∈ cs, TagsOk c) : TagsOk (.mk t as x y cs) := by
  intro p t' as' x' y' cs' hp
  cases p with
  | nil => simp only [elemAt, Option.some.injEq, PElem.mk.injEq] at hp; obtain ⟨rfl, -⟩ := hp; exact h
  | cons i p =>
    rw [elemAt] at hp
    cases hc : cs[i]? with
    | none => rw [hc] at hp; cases hp
    | some c =>
      rw [hc] at hp
      exact hcs c (List.mem_of_getElem? hc) p t' as' x' y' cs' hp

private theorem root_ok : TagsOk XPathSamples.root := by
  have hb : ∀ x, TagsOk (.mk ['b'] [] x none []) := fun x => tags_ok (.inl plain_b) (by simp)
  refine tags_ok tag_r fun c hc => ?_
  simp only [List.mem_cons, List.not_mem_nil, or_false] at hc
  rcases hc with rfl | rfl
  · refine tags_ok (.inl plain_a) fun c hc => ?_
    simp only [List.mem_cons, List.not_mem_nil, or_false] at hc
    rcases hc with rfl | rfl
    · exact hb _
    · refine tags_ok (.inl plain_a) fun c hc => ?_
      simp only [List.mem_cons, List.not_mem_nil, or_false] at hc
      subst hc; exact hb _
  · exact tags_ok (.inl plain_a) (by simp)

private theorem flat_ok : TagsOk XPathSamples.flat := by
  refine tags_ok tag_r fun c hc => ?_
  simp only [List.mem_cons, List.not_mem_nil, or_false] at hc
  rcases hc with rfl | rfl | rfl
  · exact tags_ok (.inl plain_a) (by simp)
  · exact tags_ok (.inl plain_b) (by simp)
  · exact tags_ok (.inl plain_b) (by simp)

/-- **C71, violated.** XPath starts an absolute path at the document, so its first step names the root element. The
selector starts at the root element: a path that names the root element finds nothing (unless that element holds
another one of the same name). -/
theorem C71_violated_root (root : PElem) (hr : TagsOk root) (t : Chars) (ps : List Pred) (ss : List Step)
    (hcs : ∀ c ∈ root.children, c.tag ≠ t) (h : PathOk (.child (.tag t) ps :: ss)) :
    selectText root (some (pathText (.child (.tag t) ps :: ss))) = .ok [] := by
  obtain ⟨found, h1, -, -, h2⟩ := C71_select root hr _ (by simp) h
  have : found = [] := by
    rw [List.eq_nil_iff_forall_not_mem]
    intro q hq
    obtain ⟨m, hm, -⟩ := (h1 q).1 hq
    have hm : m ∈ selected root (.tag t) ps [] := hm
    have h0 := h (.child (.tag t) ps) (by simp)
    rw [xs_selected hr h0.1 h0.2] at hm
    obtain ⟨hm, -⟩ := List.mem_filter.1 hm
    obtain ⟨hm, ha⟩ := List.mem_filter.1 hm
    obtain ⟨i, rfl, hs⟩ := xs_mem_children.1 hm
    obtain ⟨rt, as, x, y, cs⟩ := root
    simp only [List.nil_append, NameTest.accepts, elemAt] at ha hs
    cases hc : cs[i]? with
    | none => rw [hc] at hs; cases hs
    | some c =>
      rw [hc] at ha
      have hne := hcs c (List.mem_of_getElem? hc)
      obtain ⟨t', as', x', y', cs'⟩ := c
      simp only [Option.bind_some, elemAt, beq_iff_eq] at ha
      exact hne ha
  rw [h2, this]; rfl

/-- **C71, violated.** With `//` twice an element can be selected several times. -/
theorem C71_violated_duplicates :
    selectText XPathSamples.root (some "//a//b") = .ok [none, some (.str "z"), some (.str "z")] := by rfl

/-- What `findall` does with a path that goes on with these characters. -/
private theorem select_start (root : PElem) {ss : List Step} (hss : PathOk ss) {p : String} {rest : Chars}
    (hp : p.toList = ss.flatMap Step.text ++ '/' :: rest) (hl : rest.getLast? ≠ some '/') (hne : rest ≠ []) :
    selectText root (some p) = (do
      let ops ← compilePath .after (xtokens ('/' :: rest))
      let elems ← if .missing ∈ ops then .error .typeError
        else .ok (ops.foldl (XOp.select root) ((ss.flatMap Step.ops).foldl (XOp.select root) [[]]))
      .ok (elems.map (textAt root))) := by
  have hhead : p.toList.head? = some '/' := by
    rw [hp]
    cases ss with
    | nil => rfl
    | cons s ss => obtain ⟨cs, e⟩ := xp_step_slash s; simp [e]
  have hl' : ('/' :: rest).getLast? ≠ some '/' := by
    cases rest with
    | nil => exact absurd rfl hne
    | cons c cs => rw [List.getLast?_cons_cons]; exact hl
  simp only [selectText, hhead, if_true]
  rw [hp, xp_findall_start root hss (.inr ⟨_, rfl⟩) (by simp) hl']
  cases compilePath .after (xtokens ('/' :: rest)) with
  | error => rfl
  | ok o =>
    simp only [bind, Except.bind]
    by_cases hm : XOp.missing ∈ o
    · simp only [hm, if_true]
    · simp only [hm, if_false, text_at]

private theorem slash_star (root : PElem) {p : String} {l : Chars} (hp : p.toList = l) (hh : l.head? = some '/')
    (hl : l.getLast? = some '/') (hn : 2 ≤ l.length) :
    selectText root (some p) = selectText root (some (String.ofList (l ++ ['*']))) := by
  have hh' : (l ++ ['*']).head? = some '/' := by cases l with
    | nil => simp at hh
    | cons c cs => simpa using hh
  have e1 : ('.' :: l).getLast? = some '/' := by
    cases l with
    | nil => simp at hn
    | cons c cs => rw [List.getLast?_cons_cons]; exact hl
  have e2 : ('.' :: (l ++ ['*'])).getLast? ≠ some '/' := by
    rw [← List.cons_append, List.getLast?_append]; simp
  simp only [selectText, hp, hh, hh', if_true, String.toList_ofList]
  congr 1
  unfold findall
  have i1 : isPath ('.' :: l) = true := by simp [isPath, hasPathChar]
  have i2 : isPath ('.' :: (l ++ ['*'])) = true := by simp [isPath, hasPathChar]
  rw [i1, i2, if_pos rfl, if_pos rfl]
  unfold etreeFindall
  simp only [e1, e2, if_true, if_false, List.cons_append]

/-- If a path that goes on like this raises an exception whatever follows, it does so too when it ends with a slash. -/
private theorem select_error (root : PElem) {ss : List Step} (hss : PathOk ss) {mid : Chars} (hmid : mid ≠ [])
    (hml : mid.getLast? ≠ some '/') (good : Chars → Prop) (hgood : ∀ r, r ≠ [] → good r → good (r ++ ['*'])) {e : Exc}
    (he : ∀ r, good r → compilePath .after (xtokens ('/' :: (mid ++ r))) = .error e) {p : String} {r : Chars}
    (hr : good r) (hp : p.toList = ss.flatMap Step.text ++ '/' :: (mid ++ r)) :
    selectText root (some p) = .error e := by
  have key : ∀ (p : String) (r : Chars), good r → r.getLast? ≠ some '/' →
      p.toList = ss.flatMap Step.text ++ '/' :: (mid ++ r) → selectText root (some p) = .error e := by
    intro p r hr hl hp
    rw [select_start root hss hp, he r hr]
    · rfl
    · rw [List.getLast?_append]
      cases hg : r.getLast? with
      | none => simpa using hml
      | some x => rw [hg] at hl; simpa using hl
    · simp [hmid]
  by_cases hl : r.getLast? = some '/'
  · have hrne : r ≠ [] := by rintro rfl; simp at hl
    have hl' : (ss.flatMap Step.text ++ '/' :: (mid ++ r)).getLast? = some '/' := by
      rw [show ss.flatMap Step.text ++ '/' :: (mid ++ r) = (ss.flatMap Step.text ++ '/' :: mid) ++ r from by simp,
        List.getLast?_append, hl]; rfl
    have hh : (ss.flatMap Step.text ++ '/' :: (mid ++ r)).head? = some '/' := by
      cases ss with
      | nil => rfl
      | cons s ss => obtain ⟨cs, e⟩ := xp_step_slash s; simp [e]
    have hn : 2 ≤ (ss.flatMap Step.text ++ '/' :: (mid ++ r)).length := by
      have := List.length_pos_iff.2 hmid
      simp only [List.length_append, List.length_cons]
      omega
    rw [slash_star root hp hh hl' hn]
    exact key _ (r ++ ['*']) (hgood r hrne hr) (by simp) (by simp)
  · exact key p r hr hl hp

/-- **C71, violated.** A path in which a step uses a namespace prefix, as those of the XACML standard do, is refused:
the prefixes of the policy document are not handed on. `deep`: the step starts with `//`. -/
theorem C71_violated_prefix (root : PElem) (ss : List Step) (hss : PathOk ss) (deep : Bool) (pre name : Chars)
    (hpre : PlainName pre) (hname : PlainName name) (rest : String)
    (hrest : rest.toList = [] ∨ rest.toList.head? = some '/' ∨ rest.toList.head? = some '[') :
    selectText root (some (pathText ss ++ (if deep then "//" else "/") ++ String.ofList pre ++ ":" ++ String.ofList name ++ rest)) =
      .error syntaxError := by
  have tok : ∀ r : Chars, NameEnds r → xtokens (pre ++ ':' :: (name ++ r)) = .bad :: xtokens r := by
    intro r hr
    have hall : ∀ d ∈ pre ++ ':' :: name, isPathChar d = true := by
      intro d hd
      simp only [List.mem_append, List.mem_cons] at hd
      rcases hd with hd | rfl | hd
      · exact (xp_plain_path hpre).2 d hd
      · decide
      · exact (xp_plain_path hname).2 d hd
    obtain ⟨c, cs, hc, h13⟩ := xp_nameText_head (xp_nameText_plain hpre)
    have hcb : c ≠ '{' := by
      rintro rfl
      exact xs_plain_head hpre (by rw [hc]; rfl)
    have htt : tagToken ((pre ++ ':' :: name) ++ r) = pre ++ ':' :: name := by
      have htw : ((pre ++ ':' :: name) ++ r).takeWhile isPathChar = pre ++ ':' :: name := xp_takeWhile hall hr
      unfold tagToken
      rw [htw]
      rw [hc]
      simp only [List.cons_append]
      split
      · rename_i heq; injection heq with h _; exact absurd h hcb
      · rfl
    have hnt : nameToken (pre ++ ':' :: name) = .bad := by
      unfold nameToken
      rw [if_pos]
      refine ⟨?_, by simp⟩
      rw [hc]; simpa using hcb
    have hft : firstToken ((pre ++ ':' :: name) ++ r) = some (.bad, (pre ++ ':' :: name).length) := by
      rw [hc] at htt hnt ⊢
      simp only [List.mem_cons, List.not_mem_nil, or_false, not_or] at h13
      obtain ⟨k1, k2, k3, k4, k5, k6, k7, k8, k9, k10, k11, k12, k13⟩ := h13
      simp only [List.cons_append] at htt hnt ⊢
      unfold firstToken
      simp only [htt, hnt]
      simp [k1, k2, k3, k4, k5, k6, k7, k8, k9, k10, k11, k12, k13]
    have := xp_tokens (by simp) hft
    simpa using this
  have hends : NameEnds rest.toList := by
    rcases hrest with h | h | h <;> intro c hc <;> rw [h] at hc
    · cases hc
    · injection hc with hc; subst hc; decide
    · injection hc with hc; subst hc; decide
  have hgood : ∀ r : Chars, r ≠ [] → NameEnds r → NameEnds (r ++ ['*']) := by
    intro r hne hr c hc
    cases r with
    | nil => exact absurd rfl hne
    | cons d ds => exact hr c hc
  have hphead : (pre ++ ':' :: name).head? ≠ some '/' := by
    obtain ⟨c, cs, hc, h13⟩ := xp_nameText_head (xp_nameText_plain hpre)
    rw [hc]
    simp only [List.cons_append, List.head?_cons, ne_eq, Option.some.injEq]
    rintro rfl; simp at h13
  have hmne : pre ++ ':' :: name ≠ [] := by simp
  have hml : (pre ++ ':' :: name).getLast? ≠ some '/' := by
    intro h
    have := List.mem_of_getLast? h
    simp only [List.mem_append, List.mem_cons] at this
    rcases this with h | h | h
    · exact xs_plain_notMem hpre (by decide) h
    · revert h; decide
    · exact xs_plain_notMem hname (by decide) h
  cases deep with
  | false =>
    refine select_error root hss (mid := pre ++ ':' :: name) hmne hml NameEnds hgood (fun r hr => ?_) hends ?_
    · rw [xp_tokens_slash (by
        cases hp : pre ++ ':' :: name with
        | nil => exact absurd hp hmne
        | cons c cs => rw [hp] at hphead; simpa using hphead)]
      rw [List.append_assoc, List.cons_append, tok r hr]
      rfl
    · simp only [String.toList_append, toList_path, String.toList_ofList]
      simp
  | true =>
    refine select_error root hss (mid := '/' :: (pre ++ ':' :: name)) (by simp) (by
      cases hp : pre ++ ':' :: name with
      | nil => exact absurd hp hmne
      | cons c cs => rw [List.getLast?_cons_cons, ← hp]; exact hml) NameEnds hgood (fun r hr => ?_) hends ?_
    · rw [List.cons_append, xp_tokens_dslash, List.append_assoc, List.cons_append, tok r hr]
      rfl
    · simp only [String.toList_append, toList_path, String.toList_ofList]
      simp

/-- **C71, violated.** A path that asks for the text of elements or for an attribute, as the selectors in the XACML
standard do, makes `selectText` raise KeyError. -/
theorem C71_violated_text (root : PElem) (ss : List Step) (hss : PathOk ss) (rest : String) :
    selectText root (some (pathText ss ++ "/text()" ++ rest)) = .error .keyError ∧
    selectText root (some (pathText ss ++ "/@" ++ rest)) = .error .keyError := by
  constructor
  · refine select_error root hss (mid := chars% "text()") (by simp) (by simp) (fun _ => True) (fun _ _ _ => trivial)
      (fun r _ => ?_) (r := rest.toList) trivial ?_
    · have hn : NameText (chars% "text") := .inl ⟨'t', ['e', 'x', 't'], rfl, by decide, by decide⟩
      rw [xp_tokens_slash (by simp), show (chars% "text()") ++ r = (chars% "text") ++ '(' :: ')' :: r from rfl,
        xp_tokens_name hn (xp_ends_cons (by decide)), xp_tokens_parens]
      rfl
    · simp only [String.toList_append, toList_path]; simp
  · refine select_error root hss (mid := ['@']) (by simp) (by simp) (fun _ => True) (fun _ _ _ => trivial)
      (fun r _ => ?_) (r := rest.toList) trivial ?_
    · rw [xp_tokens_slash (by simp), List.cons_append, xp_tokens_sym (by decide)]
      rfl
    · simp only [String.toList_append, toList_path]; simp

private theorem select_none (root : PElem) : ∀ ops : List XOp, ops.foldl (XOp.select root) [] = []
  | [] => rfl
  | op :: ops => by
    have : XOp.select root [] op = [] := by
      cases op with
      | descendant t => cases t <;> rfl
      | _ => rfl
    rw [List.foldl_cons, this, select_none root ops]

/-- **C71, violated.** A blank after a step, as in the union of two paths `/a | /b`, is taken for the name of a child:
such a path never selects anything. -/
theorem C71_violated_blank (root : PElem) (hr : TagsOk root) (ss : List Step) (hne : ss ≠ []) (hss : PathOk ss)
    (rest : String) (found : List (Option Native))
    (h : selectText root (some (pathText ss ++ " " ++ rest)) = .ok found) : found = [] := by
  have htok : ∀ r : Chars, ∃ ts, xtokens (' ' :: r) = .space :: ts := by
    intro r
    have hs : isPySpace ' ' = true := by decide
    have hp : isPathChar ' ' = false := by decide
    have htag : tagToken (' ' :: r) = [] := by
      unfold tagToken
      simp [hp]
    have hf : firstToken (' ' :: r) = some (.space, ((' ' :: r).takeWhile isPySpace).length) := by
      unfold firstToken
      simp only [htag]
      simp [hs]
    exact ⟨_, by rw [xtokens, xtokensFrom, hf]⟩
  -- all steps but for the slash at the end are as before
  have key : ∀ (r : Chars), r.getLast? ≠ some '/' → ∀ found',
      findall root ('.' :: (ss.flatMap Step.text ++ ' ' :: r)) = .ok found' → found' = [] := by
    intro r hl found' hf
    have hlast : ('.' :: (ss.flatMap Step.text ++ ' ' :: r)).getLast? ≠ some '/' := by
      rw [← List.cons_append, List.getLast?_append]
      cases r with
      | nil => simp
      | cons c cs =>
        rw [List.getLast?_cons_cons]
        cases hg : (c :: cs).getLast? with
        | none => simp at hg
        | some x => rw [hg] at hl; simpa using hl
    have hdot : (ss.flatMap Step.text ++ ' ' :: r).head? ≠ some '.' := by rw [path_head hne]; decide
    obtain ⟨ts, hts⟩ := htok r
    have hpath : xtokens (ss.flatMap Step.text ++ ' ' :: r) = ss.flatMap Step.toks ++ .space :: ts := by
      rw [← hts]
      have gen : ∀ {ss : List Step}, PathOk ss → xtokens (ss.flatMap Step.text ++ ' ' :: r) =
          ss.flatMap Step.toks ++ xtokens (' ' :: r) := by
        intro ss
        induction ss with
        | nil => intro _; rfl
        | cons s ss ih =>
          intro h
          have ih := ih fun x hx => h x (by simp [hx])
          have ends : NameEnds (ss.flatMap Step.text ++ ' ' :: r) := by
            cases ss with
            | nil => exact xp_ends_cons (by decide)
            | cons s' ss' =>
              obtain ⟨cs, e⟩ := xp_step_slash s'
              rw [List.flatMap_cons, e]
              exact xp_ends_cons (by decide)
          have nodot : (ss.flatMap Step.text ++ ' ' :: r).head? ≠ some '.' := by
            cases ss with
            | nil => simp
            | cons s' ss' => obtain ⟨cs, e⟩ := xp_step_slash s'; simp [e]
          rw [List.flatMap_cons, List.flatMap_cons, List.append_assoc, List.append_assoc, ← ih]
          have hs := h s (by simp)
          cases s with
          | child n ps =>
            obtain ⟨c, cs, hc, hne⟩ := xp_test_head hs.1
            simp only [Step.text, Step.toks, List.cons_append, List.nil_append, List.append_assoc]
            rw [xp_tokens_slash (by rw [hc]; simpa using hne), xp_toks_test hs.1 (xp_preds_ends ends), xp_toks_preds hs.2.1]
          | deep n ps =>
            simp only [Step.text, Step.toks, List.cons_append, List.nil_append, List.append_assoc]
            rw [xp_tokens_dslash, xp_toks_test hs.1 (xp_preds_ends ends), xp_toks_preds hs.2.1]
          | self =>
            simp only [Step.text, Step.toks, List.cons_append, List.nil_append]
            rw [xp_tokens_slash (by simp), xp_tokens_dot nodot]
          | parent =>
            simp only [Step.text, Step.toks, List.cons_append, List.nil_append]
            rw [xp_tokens_slash (by simp), xp_tokens_ddot]
      exact gen hss
    have hc : compilePath .op (.dot :: (ss.flatMap Step.toks ++ .space :: ts)) =
        (compilePath .after ts).map (fun o => .self :: ss.flatMap Step.ops ++ .child [] :: o) := by
      simp only [compilePath, xp_compile_path hss]
      cases compilePath .after ts <;> rfl
    unfold findall at hf
    rw [show isPath ('.' :: (ss.flatMap Step.text ++ ' ' :: r)) = true from by simp [isPath, hasPathChar], if_pos rfl] at hf
    unfold etreeFindall at hf
    simp only [hlast, if_false, xp_tokens_dot hdot, hpath] at hf
    rw [if_neg (by simp), if_neg (by simp), hc] at hf
    cases hcp : compilePath .after ts with
    | error e => rw [hcp] at hf; cases hf
    | ok o =>
      rw [hcp] at hf
      simp only [Except.map, bind, Except.bind] at hf
      split at hf
      · cases hf
      · injection hf with hf
        rw [← hf, List.foldl_append, List.foldl_cons]
        generalize (XOp.self :: ss.flatMap Step.ops).foldl (XOp.select root) [[]] = l
        have : XOp.select root l (.child []) = [] := by
          simp only [XOp.select, List.flatMap_eq_nil_iff, List.filter_eq_nil_iff]
          intro p _ q hq
          rw [xs_kids] at hq
          obtain ⟨i, -, hs⟩ := xs_mem_children.1 hq
          unfold tagOf
          rw [xs_get]
          cases he : elemAt root q with
          | none => rw [he] at hs; cases hs
          | some el =>
            obtain ⟨t, as, x, y, cs⟩ := el
            have ht := xp_nameText_ne (xp_nameText_tag (hr q t as x y cs he))
            simp [tagTest, PElem.tag, List.isPrefixOf, List.isSuffixOf, ht]
        rw [this, select_none]
  have hp : (pathText ss ++ " " ++ rest).toList = ss.flatMap Step.text ++ ' ' :: rest.toList := by
    simp only [String.toList_append, toList_path]; simp
  by_cases hl : rest.toList.getLast? = some '/'
  · have hl' : (ss.flatMap Step.text ++ ' ' :: rest.toList).getLast? = some '/' := by
      rw [show ss.flatMap Step.text ++ ' ' :: rest.toList = (ss.flatMap Step.text ++ [' ']) ++ rest.toList from by simp,
        List.getLast?_append, hl]; rfl
    have hlen : 2 ≤ (ss.flatMap Step.text ++ ' ' :: rest.toList).length := by
      cases ss with
      | nil => exact absurd rfl hne
      | cons s ss =>
        obtain ⟨cs, e⟩ := xp_step_slash s
        simp [e]; omega
    rw [slash_star root hp (path_head hne _) hl' hlen] at h
    have e : (String.ofList ((ss.flatMap Step.text ++ ' ' :: rest.toList) ++ ['*'])).toList =
        ss.flatMap Step.text ++ ' ' :: (rest.toList ++ ['*']) := by simp
    simp only [selectText, e, path_head hne, if_true] at h
    cases hf : findall root ('.' :: (ss.flatMap Step.text ++ ' ' :: (rest.toList ++ ['*']))) with
    | error => rw [hf] at h; cases h
    | ok f =>
      rw [hf] at h
      have := key _ (by simp) f hf
      subst this
      injection h with h
      exact h.symm
  · simp only [selectText, hp, path_head hne, if_true] at h
    cases hf : findall root ('.' :: (ss.flatMap Step.text ++ ' ' :: rest.toList)) with
    | error => rw [hf] at h; cases h
    | ok f =>
      rw [hf] at h
      have := key _ hl f hf
      subst this
      injection h with h
      exact h.symm

/-- **C71, violated.** Positions count the siblings with the same tag, not the candidates: `/*[2]` and `/b[@k][1]` name
elements of this document and find nothing or something else. -/
theorem C71_violated_position :
    (PathLeads XPathSamples.flat [.child .any [.nth 2]] [] [1] ∧ PathLeads XPathSamples.flat [.child .any [.nth 3]] [] [2] ∧
      pathText [.child .any [.nth 2]] = "/*[2]" ∧
      selectText XPathSamples.flat (some "/*[2]") = .ok [some (.str "z")]) ∧
    (PathLeads XPathSamples.flat [.child (.tag ['b']) [.hasAttr ['k'], .nth 1]] [] [2] ∧
      pathText [.child (.tag ['b']) [.hasAttr ['k'], .nth 1]] = "/b[@k][1]" ∧
      selectText XPathSamples.flat (some "/b[@k][1]") = .ok []) := by
  refine ⟨⟨⟨[1], ?_, rfl⟩, ⟨[2], ?_, rfl⟩, by decide, by rfl⟩, ⟨[2], ?_, rfl⟩, by decide, by rfl⟩
  · change [1] ∈ selected XPathSamples.flat .any [.nth 2] []; decide
  · change [2] ∈ selected XPathSamples.flat .any [.nth 3] []; decide
  · change [2] ∈ selected XPathSamples.flat (.tag ['b']) [.hasAttr ['k'], .nth 1] []; decide

/-! ## With lxml -/

/-- **C71, with lxml.** What an attribute selector with a string data type evaluates to, if the engine finds nodes for
the path (with a dot before a leading slash): one value for each of them in the engine's order, with the text of an
element and the string of anything else. An element without text makes it fail. -/
theorem C71_lxml (etxpath : String → Except Exc XPathResult) (env : Env) (r : Request) (s : Selector) (path dt : String)
    (c : AVClass) (l : List XPathItem)
    (hx : r.attributeSelector = some (selectTextLxml etxpath)) (hs : s.path = some path)
    (hd : s.dataType = some dt) (hc : env.classMap.lookup dt = some c) (hn : c.native = .str)
    (he : ∀ p, (path = "/" ++ p → etxpath ("./" ++ p) = .ok (.items l)) ∧
      ((∀ p, path ≠ "/" ++ p) → etxpath path = .ok (.items l))) :
    (∀ texts : List String, l.map (fun | .node t => t | .other t => some t) = texts.map some →
      selectorEval env s (some r) =
        if texts = [] ∧ s.mustBePresent = true then .error .missingAttributeError
        else .ok (.bag { elementType := some c, items := texts.map fun t => ⟨c, dt, some (.str t)⟩ })) ∧
    (.node none ∈ l → selectorEval env s (some r) = .error .typeError) := by
  have hsel : selectTextLxml etxpath s.path =
      .ok (l.map fun | .node text => text.map .str | .other str => some (.str str)) := by
    rw [hs]
    simp only [selectTextLxml]
    by_cases hh : path.toList.head? = some '/'
    · obtain ⟨cs, hcs⟩ : ∃ cs, path.toList = '/' :: cs := by
        cases hl : path.toList with
        | nil => rw [hl] at hh; cases hh
        | cons d ds => rw [hl] at hh; injection hh with hh; exact ⟨ds, by rw [hh]⟩
      have hp : path = "/" ++ String.ofList cs := by
        apply String.toList_inj.1; simp [hcs]
      have he := (he (String.ofList cs)).1 hp
      have : "." ++ path = "./" ++ String.ofList cs := by
        apply String.toList_inj.1; simp [hcs]
      rw [if_pos hh, this, he]; rfl
    · have hp : ∀ p, path ≠ "/" ++ p := by
        rintro p rfl
        exact hh (by rw [String.toList_append]; rfl)
      rw [if_neg hh, (he "").2 hp]; rfl
  constructor
  · intro texts ht
    have e : (l.map fun (x : XPathItem) => (match x with | .node text => text.map Native.str | .other str => some (.str str))) =
        (texts.map Native.str).map some := by
      have : (l.map fun (x : XPathItem) => (match x with | .node text => text.map Native.str | .other str => some (.str str))) =
          (l.map (fun | .node t => t | .other t => some t)).map (Option.map Native.str) := by
        rw [List.map_map]
        refine List.map_congr_left fun x _ => ?_
        cases x <;> rfl
      rw [this, ht]; simp
    rw [e] at hsel
    rw [C55_selector_values env s r _ dt c _ hx hd hc hsel (by simp [hn, Native.isInstance])]
    simp only [List.map_eq_nil_iff, List.map_map]
    rfl
  · intro hm
    exact (C55_selector_fails env s r).2.2.1 _ dt c _ hx hd hc hsel
      ⟨none, List.mem_map.2 ⟨_, hm, rfl⟩, by simp⟩

/-- **C71, violated with lxml.** A path such as `string(//a)`, with a string as its value, gives one value for each
character of the string; one with a number or a Boolean as its value raises TypeError. -/
theorem C71_violated_lxml_value (etxpath : String → Except Exc XPathResult) (path : String) (hp : ∀ p, path ≠ "/" ++ p) :
    (∀ value, etxpath path = .ok (.string value) →
      selectTextLxml etxpath (some path) = .ok (value.toList.map fun c => some (.str (String.singleton c)))) ∧
    (etxpath path = .ok .number ∨ etxpath path = .ok .boolean →
      selectTextLxml etxpath (some path) = .error .typeError) := by
  have hh : path.toList.head? ≠ some '/' := by
    intro hh
    cases hl : path.toList with
    | nil => rw [hl] at hh; cases hh
    | cons d ds =>
      rw [hl] at hh; injection hh with hh
      exact hp (String.ofList ds) (String.toList_inj.1 (by simp [hl, hh]))
  refine ⟨fun value he => ?_, fun he => ?_⟩
  · simp only [selectTextLxml, hh, if_false, he]; rfl
  · rcases he with he | he <;> simp only [selectTextLxml, hh, if_false, he] <;> rfl

section NonVacuity
open XPathSamples
example : selectTextLxml (fun _ => .ok (.string "ab")) (some "string(//a)") = .ok [some (.str "a"), some (.str "b")] := by rfl
example : ∀ p, "string(//a)" ≠ "/" ++ p := by
  intro p h
  have := congrArg String.toList h
  rw [String.toList_append] at this
  simp at this
/-- An engine that knows the path `.//a/@k` only. -/
example : let e : String → Except Exc XPathResult := fun p => if p = ".//a/@k" then .ok (.items [.other "1", .node (some "x")]) else .error .valueError
    ∀ p, ("//a/@k" = "/" ++ p → e ("./" ++ p) = .ok (.items [.other "1", .node (some "x")])) ∧
      ((∀ p, "//a/@k" ≠ "/" ++ p) → e "//a/@k" = .ok (.items [.other "1", .node (some "x")])) := by
  intro e p
  refine ⟨fun h => ?_, fun h => absurd rfl (h "/a/@k")⟩
  have h := congrArg String.toList h
  rw [String.toList_append] at h
  have hp : p = "/a/@k" := String.toList_inj.1 (by simpa using h.symm)
  subst hp
  rfl
/-- `/a[@k='1'][2]…`: the first `a` with `k='1'` and a `b` inside, then the last `b` inside it, its parent and that one's `b`. -/
def XPathSamples.steps : List Step :=
  [.child (.tag ['a']) [.nth 1, .attrIs ['k'] ['1'], .hasChild (.tag ['b'])], .deep (.tag ['b']) [.fromLast 0, .textIs ['z']],
   .parent, .child (.inAny ['b']) []]
example : pathText steps = "/a[1][@k='1'][b]//b[last()][.='z']/../{*}b" := by decide
example : TagsOk root := root_ok
example : TagsOk flat := flat_ok
example : PathOk steps := by
  intro s hs
  simp only [steps, List.mem_cons, List.not_mem_nil, or_false] at hs
  rcases hs with rfl | rfl | rfl | rfl
  · refine ⟨.inl plain_a, ?_, by decide, fun _ => ⟨_, rfl⟩⟩
    simp only [List.mem_cons, List.not_mem_nil, or_false]
    rintro pr (rfl | rfl | rfl)
    · exact Nat.le_refl 1
    · exact ⟨.inl plain_k, by decide⟩
    · exact ⟨.inl plain_b, by simp⟩
  · refine ⟨.inl plain_b, ?_, by decide, fun _ => ⟨_, rfl⟩⟩
    simp only [List.mem_cons, List.not_mem_nil, or_false]
    rintro pr (rfl | rfl)
    · trivial
    · simp [Pred.Ok]
  · trivial
  · exact ⟨plain_b, by simp, by simp, by simp⟩
/-- The path leads to the inner `b`. -/
example : PathLeads root steps [] [0, 1, 0] :=
  ⟨[0], (by decide : [0] ∈ selected root (.tag ['a']) [.nth 1, .attrIs ['k'] ['1'], .hasChild (.tag ['b'])] []),
   [0, 1, 0], ⟨[1], (by decide : [0, 1, 0] ∈ selected root (.tag ['b']) [.fromLast 0, .textIs ['z']] ([0] ++ [1]))⟩,
   [0, 1], ⟨0, rfl⟩,
   [0, 1, 0], (by decide : [0, 1, 0] ∈ selected root (.inAny ['b']) [] [0, 1]), rfl⟩
example : textAt root [0, 1, 0] = some (.str "z") := rfl
/-- `//xacml:a[b]` -/
example : pathText [] ++ (if true then "//" else "/") ++ String.ofList ['a'] ++ ":" ++ String.ofList ['b'] ++ "[b]" = "//a:b[b]" := by
  decide
example : ∀ c ∈ root.children, c.tag ≠ chars% "{urn:r}Request" := by
  intro c hc
  simp only [root, PElem.children, List.mem_cons, List.not_mem_nil, or_false] at hc
  rcases hc with rfl | rfl <;> decide
example : selectText root (some "/a | /b") = .ok [] := by rfl
end NonVacuity

end Xacml
