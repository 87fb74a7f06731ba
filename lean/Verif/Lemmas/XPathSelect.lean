import Verif.Lemmas.XPathText

/-!
# What compiled paths select
-/
namespace Xacml
open Spec

theorem xs_get : ∀ (p : List Nat) (e : PElem), e.get? p = elemAt e p
  | [], e => by cases e; rfl
  | i :: p, .mk t as x y cs => by
    simp only [PElem.get?, elemAt, PElem.children]
    cases cs[i]? with
    | none => rfl
    | some c => exact xs_get p c

theorem xs_kids (root : PElem) (p : List Nat) : kidsOf root p = childrenAt root p := by
  unfold kidsOf childrenAt
  rw [xs_get]
  cases elemAt root p with
  | none => rfl
  | some e => cases e; rfl

mutual
theorem xs_text : ∀ e : PElem, e.itertext = stringValue e
  | .mk t as x y cs => by rw [PElem.itertext, stringValue, xs_texts cs]
theorem xs_texts : ∀ cs : List PElem, PElem.itertextAll cs = stringValues cs
  | [] => rfl
  | .mk t as x y cs :: es => by
    rw [PElem.itertextAll, stringValues, xs_text (.mk t as x y cs), xs_texts es]; rfl
end

theorem xs_innerText (root : PElem) (p : List Nat) : innerText root p = stringAt root p := by
  unfold innerText stringAt
  rw [xs_get]
  cases elemAt root p with
  | none => rfl
  | some e => simp [xs_text]

theorem xs_attr (root : PElem) (p : List Nat) (k : Chars) : attrOf root p k = attrAt root p k := by
  unfold attrOf attrAt
  rw [xs_get]
  cases elemAt root p with
  | none => rfl
  | some e => cases e; rfl

theorem xs_elem_append : ∀ (p : List Nat) (e : PElem) (q : List Nat),
    elemAt e (p ++ q) = (elemAt e p).bind fun c => elemAt c q
  | [], e, q => by cases e; rfl
  | i :: p, .mk t as x y cs, q => by
    simp only [List.cons_append, elemAt]
    cases cs[i]? with
    | none => rfl
    | some c => exact xs_elem_append p c q

theorem xs_mem_children {root : PElem} {p q : List Nat} :
    q ∈ childrenAt root p ↔ ∃ i, q = p ++ [i] ∧ (elemAt root q).isSome = true := by
  unfold childrenAt
  cases h : elemAt root p with
  | none =>
    simp only [List.not_mem_nil, false_iff]
    rintro ⟨i, rfl, hs⟩
    rw [xs_elem_append, h] at hs; simp at hs
  | some e =>
    obtain ⟨t, as, x, y, cs⟩ := e
    have key : ∀ i, (elemAt root (p ++ [i])).isSome = decide (i < cs.length) := by
      intro i
      rw [xs_elem_append, h]
      simp only [Option.bind_some, elemAt]
      by_cases hi : i < cs.length
      · simp [hi, elemAt]
      · simp [hi]
    simp only [List.mem_map, List.mem_range]
    constructor
    · rintro ⟨i, hi, rfl⟩
      exact ⟨i, rfl, by simp [key, hi]⟩
    · rintro ⟨i, rfl, hs⟩
      exact ⟨i, by simpa [key] using hs, rfl⟩

/-! ## Tags -/

theorem xs_plain_chars {t : Chars} (h : PlainName t) : ∀ d ∈ t, NameChar d := by
  obtain ⟨c, cs, rfl, hc, hcs⟩ := h
  intro d hd
  rcases List.mem_cons.1 hd with rfl | hd
  · exact .inl hc
  · exact hcs d hd

theorem xs_plain_notMem {t : Chars} (h : PlainName t) {d : Char}
    (hd : d.toNat ∈ [47, 91, 93, 40, 41, 64, 33, 61, 123, 125, 42, 58, 39, 34]) : d ∉ t := fun hm =>
  xp_nameChar_ne (xs_plain_chars h d hm) hd rfl

theorem xs_plain_head {t : Chars} (h : PlainName t) : t.head? ≠ some '{' := fun hh =>
  xs_plain_notMem h (by decide) (List.mem_of_head? hh)

theorem xs_brace_prefix {ns rest : Chars} (h : Namespace ns) :
    (chars% "{*}").isPrefixOf ('{' :: ns ++ '}' :: rest) = false ∧ (chars% "{}").isPrefixOf ('{' :: ns ++ '}' :: rest) = false := by
  obtain ⟨h1, h2, h3⟩ := h
  cases ns with
  | nil => exact absurd rfl h1
  | cons c cs =>
    have hc : c ≠ '}' := by rintro rfl; simp at h2
    constructor
    · cases cs with
      | nil =>
        have : c ≠ '*' := by rintro rfl; exact h3 rfl
        simp [List.isPrefixOf, Ne.symm this]
      | cons d ds =>
        have hd : d ≠ '}' := by rintro rfl; simp at h2
        simp [List.isPrefixOf, Ne.symm hd]
    · simp [List.isPrefixOf, Ne.symm hc]

theorem xs_suffix_last {t : Chars} (h : (chars% "}*").isSuffixOf t = true) : t.getLast? = some '*' := by
  rw [List.isSuffixOf_iff_suffix] at h
  obtain ⟨a, rfl⟩ := h
  simp

theorem xs_last_name {a name : Chars} (h : PlainName name) : (a ++ name).getLast? ≠ some '*' := by
  have hne : name ≠ [] := (xp_plain_path h).1
  rw [List.getLast?_append]
  cases hg : name.getLast? with
  | none => simp [List.getLast?_eq_none_iff] at hg; exact absurd hg hne
  | some x =>
    have := List.mem_of_getLast? hg
    simp only [Option.some_or, ne_eq, Option.some.injEq]
    rintro rfl
    exact xs_plain_notMem h (by decide) this

theorem xs_test_tag {t tag : Chars} (h : TagName t) : tagTest t tag = (tag == t) := by
  have h1 : (chars% "{*}").isPrefixOf t = false := by
    rcases h with h | ⟨ns, name, rfl, hn, -⟩
    · have := xs_plain_head h
      cases t with
      | nil => rfl
      | cons c cs => simp at this; simp [List.isPrefixOf, Ne.symm this]
    · exact (xs_brace_prefix hn).1
  have h2 : (chars% "{}").isPrefixOf t = false := by
    rcases h with h | ⟨ns, name, rfl, hn, -⟩
    · have := xs_plain_head h
      cases t with
      | nil => rfl
      | cons c cs => simp at this; simp [List.isPrefixOf, Ne.symm this]
    · exact (xs_brace_prefix hn).2
  have h3 : (chars% "}*").isSuffixOf t = false := by
    cases hs : (chars% "}*").isSuffixOf t with
    | false => rfl
    | true =>
      have hl := xs_suffix_last hs
      rcases h with h | ⟨ns, name, rfl, -, h⟩
      · exact absurd hl (xs_last_name (a := []) h)
      · rw [show '{' :: ns ++ '}' :: name = ('{' :: ns ++ ['}']) ++ name from by simp] at hl
        exact absurd hl (xs_last_name h)
  have h4 : t ≠ chars% "{*}*" := by rintro rfl; revert h1; decide
  have h5 : t ≠ chars% "{}*" := by rintro rfl; revert h2; decide
  unfold tagTest
  simp only [h4, h5, h1, h2, h3, if_false, Bool.false_eq_true]

theorem xs_split_last {a b x y : Chars} (hx : '}' ∉ x) (hy : '}' ∉ y) (h : a ++ '}' :: x = b ++ '}' :: y) : x = y := by
  have key : ∀ (a x : Chars), '}' ∉ x → (a ++ '}' :: x).reverse.takeWhile (· != '}') = x.reverse := by
    intro a x hx
    have : (a ++ '}' :: x).reverse = x.reverse ++ '}' :: a.reverse := by simp
    rw [this]
    exact xp_takeWhile (fun d hd => by simp; rintro rfl; exact hx (List.mem_reverse.1 hd)) (by simp)
  have h1 := key a x hx
  rw [h, key b y hy] at h1
  exact (List.reverse_inj.1 h1).symm

theorem xs_splitTag_brace {ns name : Chars} (h : '}' ∉ ns) : splitTag ('{' :: ns ++ '}' :: name) = (some ns, name) := by
  have e1 : (ns ++ '}' :: name).takeWhile (· ≠ '}') = ns :=
    xp_takeWhile (fun d hd => by simp; rintro rfl; exact h hd) (by simp)
  have e2 : (ns ++ '}' :: name).dropWhile (· ≠ '}') = '}' :: name :=
    xp_dropWhile (fun d hd => by simp; rintro rfl; exact h hd) (by simp)
  simp only [List.cons_append, splitTag]
  rw [e1, e2]; rfl

theorem xs_splitTag_plain {t : Chars} (h : t.head? ≠ some '{') : splitTag t = (none, t) := by
  unfold splitTag
  split
  · simp at h
  · rfl

theorem xs_test_inAny {name tag : Chars} (h : PlainName name) (ht : TagName tag) :
    tagTest (NameTest.inAny name).text tag = ((splitTag tag).2 == name) := by
  have h4 : (NameTest.inAny name).text ≠ chars% "{*}*" := by
    intro e
    have : name = ['*'] := by simpa [NameTest.text] using e
    exact xs_plain_notMem h (d := '*') (by decide) (by simp [this])
  have h5 : (NameTest.inAny name).text ≠ chars% "{}*" := by
    intro e; simp [NameTest.text] at e
  have h1 : (chars% "{*}").isPrefixOf (NameTest.inAny name).text = true := by simp [NameTest.text, List.isPrefixOf]
  unfold tagTest
  simp only [h4, h5, h1, if_false, if_true]
  have e1 : (NameTest.inAny name).text.drop 3 = name := rfl
  have e2 : (NameTest.inAny name).text.drop 2 = '}' :: name := rfl
  rw [e1, e2, Bool.eq_iff_iff]
  simp only [Bool.or_eq_true, beq_iff_eq, List.isSuffixOf_iff_suffix]
  rcases ht with ht | ⟨ns, nm, rfl, hn, hp⟩
  · rw [xs_splitTag_plain (xs_plain_head ht)]
    simp only [or_iff_left_iff_imp]
    rintro ⟨a, rfl⟩
    exact absurd (by simp) (xs_plain_notMem ht (d := '}') (by decide))
  · rw [xs_splitTag_brace hn.2.1]
    constructor
    · rintro (e | ⟨a, e⟩)
      · exact absurd (by rw [← e]; rfl) (xs_plain_head h)
      · exact (xs_split_last (xs_plain_notMem h (by decide)) (xs_plain_notMem hp (by decide))
          (by simpa using e : a ++ '}' :: name = ('{' :: ns) ++ '}' :: nm)).symm
    · rintro rfl
      exact .inr ⟨'{' :: ns, by simp⟩

theorem xs_test_allIn {ns tag : Chars} (h : Namespace ns) (ht : TagName tag) :
    tagTest (NameTest.allIn ns).text tag = ((splitTag tag).1 == some ns) := by
  have e0 : (NameTest.allIn ns).text = '{' :: ns ++ '}' :: ['*'] := by simp [NameTest.text]
  have h1 := (xs_brace_prefix (rest := ['*']) h).1
  have h2 := (xs_brace_prefix (rest := ['*']) h).2
  rw [e0]
  have h4 : '{' :: ns ++ '}' :: ['*'] ≠ chars% "{*}*" := by intro e; rw [e] at h1; revert h1; decide
  have h5 : '{' :: ns ++ '}' :: ['*'] ≠ chars% "{}*" := by intro e; rw [e] at h2; revert h2; decide
  have h3 : (chars% "}*").isSuffixOf ('{' :: ns ++ '}' :: ['*']) = true := by
    rw [List.isSuffixOf_iff_suffix]; exact ⟨'{' :: ns, by simp⟩
  unfold tagTest
  simp only [h4, h5, h1, h3, if_false, if_true, Bool.false_eq_true]
  have e1 : ('{' :: ns ++ '}' :: ['*']).dropLast = '{' :: ns ++ ['}'] := by
    rw [show '{' :: ns ++ '}' :: ['*'] = ('{' :: ns ++ ['}']) ++ ['*'] from by simp, List.dropLast_concat]
  rw [e1, Bool.eq_iff_iff]
  simp only [beq_iff_eq, List.isPrefixOf_iff_prefix]
  rcases ht with ht | ⟨ns', nm, rfl, hn, hp⟩
  · rw [xs_splitTag_plain (xs_plain_head ht)]
    simp only [reduceCtorEq, iff_false]
    rintro ⟨a, rfl⟩
    exact xs_plain_head ht rfl
  · rw [xs_splitTag_brace hn.2.1]
    simp only [Option.some.injEq]
    constructor
    · rintro ⟨a, e⟩
      have e : ns ++ '}' :: a = ns' ++ '}' :: nm := by simpa using e
      have key : ∀ (x y : Chars), '}' ∉ x → (x ++ '}' :: y).takeWhile (· != '}') = x := fun x y hx =>
        xp_takeWhile (fun d hd => by simp; rintro rfl; exact hx hd) (by simp)
      have := key ns a h.2.1
      rw [e, key ns' nm hn.2.1] at this
      exact this
    · rintro rfl
      exact ⟨nm, by simp⟩

theorem xs_test {root : PElem} (hr : TagsOk root) {n : NameTest} (h : n.Ok) (ha : n ≠ .any) {q : List Nat}
    (hq : (elemAt root q).isSome = true) : tagTest n.text (tagOf root q) = n.accepts root q := by
  unfold tagOf NameTest.accepts
  rw [xs_get]
  cases he : elemAt root q with
  | none => rw [he] at hq; cases hq
  | some e =>
    obtain ⟨t, as, x, y, cs⟩ := e
    have ht := hr q t as x y cs he
    simp only [Option.map_some, Option.getD_some, PElem.tag]
    cases n with
    | any => exact absurd rfl ha
    | tag t' => exact xs_test_tag h
    | inAny name => exact xs_test_inAny h ht
    | allIn ns => exact xs_test_allIn h ht

theorem xs_any {root : PElem} {q : List Nat} (hq : (elemAt root q).isSome = true) : NameTest.any.accepts root q = true := by
  unfold NameTest.accepts
  cases he : elemAt root q with
  | none => rw [he] at hq; cases hq
  | some e => cases e; rfl

/-! ## Elements below -/

mutual
theorem xs_mem_below : ∀ (e : PElem) (r : List Nat), r ∈ e.iterBelow ↔ r ≠ [] ∧ (elemAt e r).isSome = true
  | .mk t as x y cs, r => by
    rw [PElem.iterBelow, xs_mem_belowFrom cs 0 r]
    constructor
    · rintro ⟨i, rest, c, rfl, hc, hs⟩
      refine ⟨by simp, ?_⟩
      rw [Nat.zero_add, elemAt, hc]
      exact hs
    · rintro ⟨hne, hs⟩
      cases r with
      | nil => exact absurd rfl hne
      | cons i rest =>
        rw [elemAt] at hs
        cases hc : cs[i]? with
        | none => rw [hc] at hs; cases hs
        | some c => rw [hc] at hs; exact ⟨i, rest, c, by simp, hc, hs⟩
theorem xs_mem_belowFrom : ∀ (cs : List PElem) (k : Nat) (r : List Nat), r ∈ PElem.iterBelowFrom k cs ↔
    ∃ i rest c, r = (k + i) :: rest ∧ cs[i]? = some c ∧ (elemAt c rest).isSome = true
  | [], k, r => by simp [PElem.iterBelowFrom]
  | c :: cs, k, r => by
    rw [PElem.iterBelowFrom, List.mem_cons, List.mem_append, List.mem_map, xs_mem_belowFrom cs (k + 1) r]
    constructor
    · rintro (rfl | ⟨r', hr', rfl⟩ | ⟨i, rest, d, rfl, hd, hs⟩)
      · exact ⟨0, [], c, by simp, rfl, by cases c; rfl⟩
      · exact ⟨0, r', c, by simp, rfl, ((xs_mem_below c r').1 hr').2⟩
      · exact ⟨i + 1, rest, d, by simp; omega, by simpa using hd, hs⟩
    · rintro ⟨i, rest, d, rfl, hd, hs⟩
      cases i with
      | zero =>
        simp only [List.getElem?_cons_zero, Option.some.injEq] at hd
        subst hd
        by_cases hr : rest = []
        · subst hr; left; rfl
        · right; left; exact ⟨rest, (xs_mem_below c rest).2 ⟨hr, hs⟩, rfl⟩
      | succ i => right; right; exact ⟨i, rest, d, by simp; omega, by simpa using hd, hs⟩
end

theorem xs_mem_inside {root : PElem} {p q : List Nat} :
    q ∈ insideOf root p ↔ ∃ r, r ≠ [] ∧ q = p ++ r ∧ (elemAt root q).isSome = true := by
  unfold insideOf
  rw [xs_get]
  cases h : elemAt root p with
  | none =>
    simp only [List.not_mem_nil, false_iff]
    rintro ⟨r, -, rfl, hs⟩
    rw [xs_elem_append, h] at hs; cases hs
  | some e =>
    simp only [List.mem_map, xs_mem_below]
    constructor
    · rintro ⟨r, ⟨hne, hs⟩, rfl⟩
      exact ⟨r, hne, rfl, by rw [xs_elem_append, h]; exact hs⟩
    · rintro ⟨r, hne, rfl, hs⟩
      rw [xs_elem_append, h] at hs
      exact ⟨r, ⟨hne, hs⟩, rfl⟩

/-! ## Document order -/

theorem xs_before_append : ∀ (p : List Nat) {a b : List Nat}, Before a b → Before (p ++ a) (p ++ b)
  | [], _, _, h => h
  | _ :: p, _, _, h => .inr ⟨rfl, xs_before_append p h⟩

theorem xs_before_extend : ∀ {p q : List Nat} (a b : List Nat), p.length = q.length → Before p q →
    Before (p ++ a) (q ++ b)
  | [], [], _, _, _, h => absurd rfl h
  | [], _ :: _, _, _, hl, _ => by simp at hl
  | _ :: _, [], _, _, hl, _ => by simp at hl
  | i :: p, j :: q, a, b, hl, h => by
    rcases h with h | ⟨rfl, h⟩
    · exact .inl h
    · exact .inr ⟨rfl, xs_before_extend a b (by simpa using hl) h⟩

theorem xs_before_irrefl : ∀ p : List Nat, ¬ Before p p
  | [], h => h rfl
  | i :: p, h => by
    rcases h with h | ⟨-, h⟩
    · omega
    · exact xs_before_irrefl p h

theorem xs_before_dropLast : ∀ {p q : List Nat}, p.length = q.length → Before p q →
    p.dropLast = q.dropLast ∨ Before p.dropLast q.dropLast
  | [], [], _, h => absurd rfl h
  | [], _ :: _, hl, _ => by simp at hl
  | _ :: _, [], hl, _ => by simp at hl
  | [i], [j], _, _ => .inl rfl
  | [i], _ :: _ :: _, hl, _ => by simp at hl
  | _ :: _ :: _, [j], hl, _ => by simp at hl
  | i :: i' :: p, j :: j' :: q, hl, h => by
    rw [show (i :: i' :: p).dropLast = i :: (i' :: p).dropLast from rfl,
      show (j :: j' :: q).dropLast = j :: (j' :: q).dropLast from rfl]
    rcases h with h | ⟨rfl, h⟩
    · exact .inr (.inl h)
    · rcases xs_before_dropLast (by simpa using hl) h with h | h
      · exact .inl (by rw [h])
      · exact .inr (.inr ⟨rfl, h⟩)

mutual
theorem xs_sorted_below : ∀ e : PElem, e.iterBelow.Pairwise Before
  | .mk t as x y cs => xs_sorted_belowFrom cs 0
theorem xs_sorted_belowFrom : ∀ (cs : List PElem) (k : Nat), (PElem.iterBelowFrom k cs).Pairwise Before
  | [], _ => .nil
  | c :: cs, k => by
    rw [PElem.iterBelowFrom, List.pairwise_cons, List.pairwise_append]
    have later : ∀ b ∈ PElem.iterBelowFrom (k + 1) cs, ∃ j rest, b = j :: rest ∧ k < j := by
      intro b hb
      obtain ⟨i, rest, d, rfl, -⟩ := (xs_mem_belowFrom cs (k + 1) b).1 hb
      exact ⟨_, _, rfl, by omega⟩
    refine ⟨fun b hb => ?_, ?_, xs_sorted_belowFrom cs (k + 1), fun a ha b hb => ?_⟩
    · rcases List.mem_append.1 hb with hb | hb
      · obtain ⟨r, hr, rfl⟩ := List.mem_map.1 hb
        exact .inr ⟨rfl, ((xs_mem_below c r).1 hr).1⟩
      · obtain ⟨j, rest, rfl, hj⟩ := later b hb
        exact .inl hj
    · exact List.pairwise_map.2 ((xs_sorted_below c).imp fun h => .inr ⟨rfl, h⟩)
    · obtain ⟨r, -, rfl⟩ := List.mem_map.1 ha
      obtain ⟨j, rest, rfl, hj⟩ := later b hb
      exact .inl hj
end

theorem xs_sorted_inside (root : PElem) (p : List Nat) : (insideOf root p).Pairwise Before := by
  unfold insideOf
  cases root.get? p with
  | none => exact .nil
  | some e => exact List.pairwise_map.2 ((xs_sorted_below e).imp fun h => xs_before_append p h)

theorem xs_sorted_children (root : PElem) (p : List Nat) : (childrenAt root p).Pairwise Before := by
  unfold childrenAt
  cases elemAt root p with
  | none => exact .nil
  | some e =>
    obtain ⟨t, as, x, y, cs⟩ := e
    refine List.pairwise_map.2 ((List.pairwise_lt_range (n := cs.length)).imp fun {i j} h => ?_)
    exact xs_before_append p (a := [i]) (b := [j]) (Or.inl h)

theorem xs_sorted_nodup {l : List (List Nat)} (h : l.Pairwise Before) : l.Nodup :=
  h.imp fun h e => by subst e; exact xs_before_irrefl _ h

/-! ## Predicates -/

theorem xs_zipIdx_filter {α : Type} (f : α → Bool) : ∀ (l : List α) (k : Nat),
    ((l.zipIdx k).filter fun x => f x.1).map (·.1) = l.filter f
  | [], _ => rfl
  | a :: l, k => by
    have ih := xs_zipIdx_filter f l (k + 1)
    simp only [List.zipIdx_cons, List.filter_cons]
    cases f a
    · simpa using ih
    · simpa using ih

theorem xs_keep {root : PElem} {pr : Pred} {l : List (List Nat)} {f : List Nat → Bool}
    (h : ∀ i q, l[i]? = some q → pr.holds root q (i + 1) l.length = f q) : pr.keep root l = l.filter f := by
  rw [← xs_zipIdx_filter f l 0]
  unfold Pred.keep
  congr 1
  refine List.filter_congr fun x hx => ?_
  obtain ⟨q, i⟩ := x
  exact h i q (List.mem_zipIdx_iff_getElem?.1 hx)

theorem xs_any_filter {α : Type} (l : List α) (f g : α → Bool) : (l.filter f).any g = l.any fun a => f a && g a := by
  induction l with
  | nil => rfl
  | cons a l ih =>
    rw [List.filter_cons]
    cases hf : f a <;> simp [hf, ih]

theorem xs_named {root : PElem} (hr : TagsOk root) {n : NameTest} (h : n.Ok) (ha : n ≠ .any) (p : List Nat) :
    namedKids root p n.text = (childrenAt root p).filter (n.accepts root) := by
  unfold namedKids
  rw [xs_kids]
  refine List.filter_congr fun q hq => ?_
  obtain ⟨i, -, hs⟩ := xs_mem_children.1 hq
  exact xs_test hr h ha hs

/-- Predicates without positions. -/
theorem xs_plain {root : PElem} (hr : TagsOk root) {pr : Pred} (h : pr.Ok) (hp : pr.positional = false)
    (q : List Nat) (i size : Nat) : pr.holds root q i size = pr.op.holds root q := by
  cases pr with
  | hasAttr k => simp [Pred.holds, Pred.op, XPred.holds, xs_attr]
  | attrIs k v => simp [Pred.holds, Pred.op, XPred.holds, xs_attr]
  | attrNot k v =>
    simp only [Pred.holds, Pred.op, XPred.holds, xs_attr]
    cases attrAt root q k <;> rfl
  | hasChild n =>
    simp only [Pred.holds, Pred.op, XPred.holds, xs_named hr h.1 h.2]
    rw [Bool.eq_iff_iff]
    simp
  | childIs n v => simp only [Pred.holds, Pred.op, XPred.holds, xs_named hr h.1 h.2.1, xs_any_filter, xs_innerText]
  | childNot n v => simp only [Pred.holds, Pred.op, XPred.holds, xs_named hr h.1 h.2.1, xs_any_filter, xs_innerText]
  | textIs v => simp [Pred.holds, Pred.op, XPred.holds, xs_innerText]
  | textNot v => simp [Pred.holds, Pred.op, XPred.holds, xs_innerText]
  | nth n => cases hp
  | fromLast n => cases hp

theorem xs_nodup_index {l : List (List Nat)} (hn : l.Nodup) {i j : Nat} {q : List Nat} (hi : l[i]? = some q)
    (hj : l[j]? = some q) : i = j := by
  obtain ⟨h1, e1⟩ := List.getElem?_eq_some_iff.1 hi
  obtain ⟨h2, e2⟩ := List.getElem?_eq_some_iff.1 hj
  exact (List.getElem_inj hn).1 (e1.trans e2.symm)

/-- Predicates with positions, after a tag. -/
theorem xs_positional {root : PElem} (hr : TagsOk root) {t : Chars} (ht : TagName t) {pr : Pred} (h : pr.Ok)
    (hp : pr.positional = true) {p : List Nat} {i : Nat} {q : List Nat}
    (hq : ((childrenAt root p).filter ((NameTest.tag t).accepts root))[i]? = some q) :
    pr.holds root q (i + 1) ((childrenAt root p).filter ((NameTest.tag t).accepts root)).length =
      pr.op.holds root q := by
  have hm := List.mem_filter.1 (List.mem_of_getElem? hq)
  obtain ⟨j, rfl, hs⟩ := xs_mem_children.1 hm.1
  have htag : tagOf root (p ++ [j]) = t := by
    have := hm.2
    unfold NameTest.accepts at this
    unfold tagOf
    rw [xs_get]
    cases he : elemAt root (p ++ [j]) with
    | none => rw [he] at hs; cases hs
    | some e => obtain ⟨t', as, x, y, cs⟩ := e; rw [he] at this; simp only [beq_iff_eq] at this; exact this
  have hk : namedKids root (p ++ [j]).dropLast (tagOf root (p ++ [j])) =
      (childrenAt root p).filter ((NameTest.tag t).accepts root) := by
    rw [htag, List.dropLast_concat]
    exact xs_named hr (n := .tag t) ht (by simp) p
  have hne : ((p ++ [j]) != []) = true := by simp
  have hnd : ((childrenAt root p).filter ((NameTest.tag t).accepts root)).Nodup :=
    xs_sorted_nodup ((xs_sorted_children root p).sublist List.filter_sublist)
  generalize hl : (childrenAt root p).filter ((NameTest.tag t).accepts root) = l at *
  cases pr with
  | nth n =>
    have h1 : 1 ≤ n := h
    simp only [Pred.holds, Pred.op, XPred.holds, hk, hne, Bool.true_and]
    rw [Bool.eq_iff_iff]
    simp only [beq_iff_eq]
    constructor
    · rintro rfl; simpa using hq
    · intro hx; have := xs_nodup_index hnd hq hx; omega
  | fromLast n =>
    obtain ⟨hi, -⟩ := List.getElem?_eq_some_iff.1 hq
    simp only [Pred.holds, Pred.op, XPred.holds, hk, hne, Bool.true_and]
    rw [Bool.eq_iff_iff]
    simp only [beq_iff_eq]
    constructor
    · intro hx
      rw [List.getElem?_reverse (by omega), show l.length - 1 - n = i from by omega]; exact hq
    · intro hx
      have hlt : n < l.length := by
        have := (List.getElem?_eq_some_iff.1 hx).1; simpa using this
      rw [List.getElem?_reverse hlt] at hx
      have := xs_nodup_index hnd hq hx; omega
  | _ => cases hp

theorem xs_keep_plain {root : PElem} (hr : TagsOk root) : ∀ {ps : List Pred}, (∀ pr ∈ ps, pr.Ok) →
    (∀ pr ∈ ps, pr.positional = false) → ∀ l : List (List Nat),
    ps.foldl (fun l pr => pr.keep root l) l = l.filter fun q => ps.all fun pr => pr.op.holds root q
  | [], _, _, l => (List.filter_eq_self.2 fun _ _ => rfl).symm
  | pr :: ps, h, hp, l => by
    rw [List.foldl_cons, xs_keep (f := fun q => pr.op.holds root q) (fun i q _ => xs_plain hr (h pr (by simp)) (hp pr (by simp)) q _ _),
      xs_keep_plain hr (fun x hx => h x (by simp [hx])) (fun x hx => hp x (by simp [hx])), List.filter_filter]
    refine List.filter_congr fun q _ => ?_
    rw [List.all_cons, Bool.and_comm]

theorem xs_selected {root : PElem} (hr : TagsOk root) {n : NameTest} (hn : n.Ok) {ps : List Pred} (hps : PredsOk n ps)
    (p : List Nat) : selected root n ps p =
      ((childrenAt root p).filter (n.accepts root)).filter fun q => ps.all fun pr => pr.op.holds root q := by
  obtain ⟨h1, h2, h3⟩ := hps
  unfold selected
  cases ps with
  | nil => simp
  | cons pr ps =>
    cases hp : pr.positional with
    | false =>
      refine xs_keep_plain hr h1 (fun x hx => ?_) _
      rcases List.mem_cons.1 hx with rfl | hx
      · exact hp
      · exact h2 x hx
    | true =>
      obtain ⟨t, rfl⟩ := h3 ⟨pr, by simp, hp⟩
      rw [List.foldl_cons, xs_keep (f := fun q => pr.op.holds root q)
          (fun i q hq => xs_positional hr hn (h1 pr (by simp)) hp hq),
        xs_keep_plain hr (ps := ps) (fun x hx => h1 x (by simp [hx])) h2, List.filter_filter]
      refine List.filter_congr fun q _ => ?_
      rw [List.all_cons, Bool.and_comm]

/-! ## Steps -/

/-- What the operations of a step do. -/
def stepAll (root : PElem) (l : List (List Nat)) : Step → List (List Nat)
  | .child n ps => l.flatMap (selected root n ps)
  | .deep n ps => l.flatMap fun p =>
      (insideOf root p).filter fun q => n.accepts root q && ps.all fun pr => pr.op.holds root q
  | .self => l
  | .parent => firstTimes [] ((l.filter (· != [])).map List.dropLast)

theorem xs_pred_ops {root : PElem} : ∀ (ps : List Pred) (l : List (List Nat)),
    (ps.map fun p => XOp.pred p.op).foldl (XOp.select root) l = l.filter fun q => ps.all fun pr => pr.op.holds root q
  | [], l => (List.filter_eq_self.2 fun _ _ => rfl).symm
  | pr :: ps, l => by
    rw [List.map_cons, List.foldl_cons, xs_pred_ops ps]
    simp only [XOp.select, List.filter_filter]
    refine List.filter_congr fun q _ => ?_
    rw [List.all_cons, Bool.and_comm]

theorem xs_filter_flatMap {α β : Type} (l : List α) (f : α → List β) (g : β → Bool) :
    (l.flatMap f).filter g = l.flatMap fun a => (f a).filter g := by
  induction l with
  | nil => rfl
  | cons a l ih => simp [List.flatMap_cons, ih]

theorem xs_childOp {root : PElem} (hr : TagsOk root) {n : NameTest} (hn : n.Ok) (l : List (List Nat)) :
    XOp.select root l n.childOp = l.flatMap fun p => (childrenAt root p).filter (n.accepts root) := by
  cases n with
  | any =>
    simp only [NameTest.childOp, XOp.select]
    congr 1
    funext p
    rw [xs_kids]
    refine (List.filter_eq_self.2 fun q hq => ?_).symm
    obtain ⟨i, -, hs⟩ := xs_mem_children.1 hq
    exact xs_any hs
  | _ =>
    simp only [NameTest.childOp, XOp.select]
    congr 1
    funext p
    exact xs_named hr hn (by simp) p

theorem xs_deepOp {root : PElem} (hr : TagsOk root) {n : NameTest} (hn : n.Ok) (l : List (List Nat)) :
    XOp.select root l n.deepOp = l.flatMap fun p => (insideOf root p).filter (n.accepts root) := by
  cases n with
  | any =>
    simp only [NameTest.deepOp, XOp.select]
    congr 1
    funext p
    refine (List.filter_eq_self.2 fun q hq => ?_).symm
    obtain ⟨r, -, -, hs⟩ := xs_mem_inside.1 hq
    exact xs_any hs
  | _ =>
    simp only [NameTest.deepOp, XOp.select]
    congr 1
    funext p
    refine List.filter_congr fun q hq => ?_
    obtain ⟨r, -, -, hs⟩ := xs_mem_inside.1 hq
    exact xs_test hr hn (by simp) hs

theorem xs_step {root : PElem} (hr : TagsOk root) {s : Step} (h : s.Ok) (l : List (List Nat)) :
    s.ops.foldl (XOp.select root) l = stepAll root l s := by
  cases s with
  | child n ps =>
    simp only [Step.ops, List.foldl_cons, stepAll]
    rw [xs_childOp hr h.1, xs_pred_ops, xs_filter_flatMap]
    congr 1
    funext p
    exact (xs_selected hr h.1 h.2 p).symm
  | deep n ps =>
    simp only [Step.ops, List.foldl_cons, stepAll]
    rw [xs_deepOp hr h.1, xs_pred_ops, xs_filter_flatMap]
    congr 1
    funext p
    rw [List.filter_filter]
    refine List.filter_congr fun q _ => ?_
    rw [Bool.and_comm]
  | self => rfl
  | parent => rfl

theorem xs_path {root : PElem} (hr : TagsOk root) : ∀ {ss : List Step}, PathOk ss → ∀ l : List (List Nat),
    (ss.flatMap Step.ops).foldl (XOp.select root) l = ss.foldl (stepAll root) l
  | [], _, _ => rfl
  | s :: ss, h, l => by
    rw [List.flatMap_cons, List.foldl_append, List.foldl_cons, xs_step hr (h s (by simp)),
      xs_path hr fun x hx => h x (by simp [hx])]

theorem xs_mem_firstTimes : ∀ {m seen : List (List Nat)} {q : List Nat}, q ∈ firstTimes seen m ↔ q ∈ m ∧ q ∉ seen
  | [], seen, q => by simp [firstTimes]
  | p :: ps, seen, q => by
    rw [firstTimes]
    split
    · rename_i hp
      rw [xs_mem_firstTimes, List.mem_cons]
      constructor
      · rintro ⟨h1, h2⟩; exact ⟨.inr h1, h2⟩
      · rintro ⟨rfl | h1, h2⟩
        · exact absurd hp h2
        · exact ⟨h1, h2⟩
    · rename_i hp
      rw [List.mem_cons, xs_mem_firstTimes, List.mem_cons, List.mem_cons]
      constructor
      · rintro (rfl | ⟨h1, h2⟩)
        · exact ⟨.inl rfl, hp⟩
        · exact ⟨.inr h1, fun h => h2 (.inr h)⟩
      · rintro ⟨rfl | h1, h2⟩
        · exact .inl rfl
        · by_cases e : q = p
          · exact .inl e
          · exact .inr ⟨h1, fun h => h.elim e h2⟩

theorem xs_firstTimes_sublist : ∀ (m seen : List (List Nat)), (firstTimes seen m).Sublist m
  | [], _ => .slnil
  | p :: ps, seen => by
    rw [firstTimes]
    split
    · exact (xs_firstTimes_sublist ps seen).cons _
    · exact (xs_firstTimes_sublist ps _).cons_cons _

theorem xs_firstTimes_nodup : ∀ (m seen : List (List Nat)), (firstTimes seen m).Nodup
  | [], _ => List.nodup_nil
  | p :: ps, seen => by
    rw [firstTimes]
    split
    · exact xs_firstTimes_nodup ps seen
    · rw [List.nodup_cons]
      exact ⟨fun h => (xs_mem_firstTimes.1 h).2 (by simp), xs_firstTimes_nodup ps _⟩

theorem xs_mem_step {root : PElem} (hr : TagsOk root) {s : Step} (h : s.Ok) {l : List (List Nat)} {q : List Nat} :
    q ∈ stepAll root l s ↔ ∃ p ∈ l, s.Leads root p q := by
  cases s with
  | child n ps => simp [stepAll, Step.Leads, List.mem_flatMap]
  | deep n ps =>
    simp only [stepAll, Step.Leads, List.mem_flatMap]
    refine exists_congr fun p => and_congr_right fun _ => ?_
    simp only [xs_selected hr h.1 h.2, List.mem_filter, Bool.and_eq_true]
    constructor
    · rintro ⟨hq, ha, hp⟩
      obtain ⟨r, hne, rfl, hs⟩ := xs_mem_inside.1 hq
      refine ⟨r.dropLast, ⟨xs_mem_children.2 ⟨r.getLast hne, ?_, hs⟩, ha⟩, hp⟩
      rw [List.append_assoc, List.dropLast_concat_getLast hne]
    · rintro ⟨inner, ⟨hq, ha⟩, hp⟩
      obtain ⟨i, rfl, hs⟩ := xs_mem_children.1 hq
      exact ⟨xs_mem_inside.2 ⟨inner ++ [i], by simp, by simp, hs⟩, ha, hp⟩
  | self => simp [stepAll, Step.Leads]
  | parent =>
    simp only [stepAll, Step.Leads, xs_mem_firstTimes, List.mem_map, List.mem_filter, List.not_mem_nil,
      not_false_eq_true, and_true]
    constructor
    · rintro ⟨p, ⟨hp, hne⟩, rfl⟩
      have hne : p ≠ [] := by simpa using hne
      exact ⟨p, hp, p.getLast hne, (List.dropLast_concat_getLast hne).symm⟩
    · rintro ⟨p, hp, i, rfl⟩
      exact ⟨q ++ [i], ⟨hp, by simp⟩, by simp⟩

theorem xs_mem_path {root : PElem} (hr : TagsOk root) : ∀ {ss : List Step}, PathOk ss → ∀ {l : List (List Nat)}
    {q : List Nat}, q ∈ ss.foldl (stepAll root) l ↔ ∃ p ∈ l, PathLeads root ss p q
  | [], _, l, q => by simp [PathLeads]
  | s :: ss, h, l, q => by
    rw [List.foldl_cons, xs_mem_path hr fun x hx => h x (by simp [hx])]
    simp only [xs_mem_step hr (h s (by simp)), PathLeads]
    constructor
    · rintro ⟨m, ⟨p, hp, h1⟩, h2⟩; exact ⟨p, hp, m, h1, h2⟩
    · rintro ⟨p, hp, m, h1, h2⟩; exact ⟨m, ⟨p, hp, h1⟩, h2⟩

/-! ## Once each, and in document order -/

/-- All positions are equally deep. -/
def Level (l : List (List Nat)) : Prop := ∀ p ∈ l, ∀ q ∈ l, p.length = q.length

theorem xs_selected_sublist {root : PElem} (hr : TagsOk root) {n : NameTest} {ps : List Pred}
    (h : (Step.child n ps).Ok) (p : List Nat) : (selected root n ps p).Sublist (childrenAt root p) := by
  rw [xs_selected hr h.1 h.2]
  exact List.filter_sublist.trans List.filter_sublist

theorem xs_mem_selected {root : PElem} (hr : TagsOk root) {n : NameTest} {ps : List Pred}
    (h : (Step.child n ps).Ok) {p q : List Nat} (hq : q ∈ selected root n ps p) : ∃ i, q = p ++ [i] := by
  obtain ⟨i, e, -⟩ := xs_mem_children.1 ((xs_selected_sublist hr h p).subset hq)
  exact ⟨i, e⟩

theorem xs_level_step {root : PElem} (hr : TagsOk root) {s : Step} (h : s.Ok) (hd : s.isDeep = false)
    {l : List (List Nat)} (hl : Level l) : Level (stepAll root l s) := by
  intro q hq q' hq'
  obtain ⟨p, hp, h1⟩ := (xs_mem_step hr h).1 hq
  obtain ⟨p', hp', h2⟩ := (xs_mem_step hr h).1 hq'
  have e := hl p hp p' hp'
  cases s with
  | child n ps =>
    obtain ⟨i, rfl⟩ := xs_mem_selected hr h h1
    obtain ⟨j, rfl⟩ := xs_mem_selected hr h h2
    simpa using e
  | deep n ps => cases hd
  | self => obtain rfl := h1; obtain rfl := h2; exact e
  | parent =>
    obtain ⟨i, rfl⟩ := h1
    obtain ⟨j, rfl⟩ := h2
    simpa using e

theorem xs_pairwise_flatMap {R : List Nat → List Nat → Prop} {l : List (List Nat)} {f : List Nat → List (List Nat)}
    (h1 : ∀ p ∈ l, (f p).Pairwise R) (h2 : l.Pairwise fun p p' => ∀ q ∈ f p, ∀ q' ∈ f p', R q q') :
    (l.flatMap f).Pairwise R := by
  induction l with
  | nil => exact .nil
  | cons p l ih =>
    rw [List.flatMap_cons, List.pairwise_append]
    rw [List.pairwise_cons] at h2
    refine ⟨h1 p (by simp), ih (fun x hx => h1 x (by simp [hx])) h2.2, fun a ha b hb => ?_⟩
    obtain ⟨p', hp', hb⟩ := List.mem_flatMap.1 hb
    exact h2.1 p' hp' a ha b hb

theorem xs_sorted_step {root : PElem} (hr : TagsOk root) {s : Step} (h : s.Ok) {l : List (List Nat)}
    (hs : l.Pairwise Before) (hl : Level l) : (stepAll root l s).Pairwise Before := by
  have grow : ∀ f : List Nat → List (List Nat), (∀ p, (f p).Pairwise Before) → (∀ p, ∀ q ∈ f p, ∃ r, q = p ++ r) →
      (l.flatMap f).Pairwise Before := by
    intro f h1 h2
    refine xs_pairwise_flatMap (fun p _ => h1 p) ?_
    refine hs.imp_of_mem fun {p p'} hp hp' hb q hq q' hq' => ?_
    obtain ⟨r, rfl⟩ := h2 p q hq
    obtain ⟨r', rfl⟩ := h2 p' q' hq'
    exact xs_before_extend r r' (hl p hp p' hp') hb
  cases s with
  | child n ps =>
    refine grow _ (fun p => (xs_sorted_children root p).sublist (xs_selected_sublist hr h p)) fun p q hq => ?_
    obtain ⟨i, e⟩ := xs_mem_selected hr h hq
    exact ⟨_, e⟩
  | deep n ps =>
    refine grow _ (fun p => (xs_sorted_inside root p).sublist List.filter_sublist) fun p q hq => ?_
    obtain ⟨r, -, e, -⟩ := xs_mem_inside.1 (List.mem_filter.1 hq).1
    exact ⟨r, e⟩
  | self => exact hs
  | parent =>
    have hw : ((l.filter (· != [])).map List.dropLast).Pairwise fun a b => a = b ∨ Before a b := by
      rw [List.pairwise_map]
      exact (hs.sublist List.filter_sublist).imp_of_mem fun hp hq hb =>
        xs_before_dropLast (hl _ (List.mem_filter.1 hp).1 _ (List.mem_filter.1 hq).1) hb
    have h1 := hw.sublist (xs_firstTimes_sublist _ [])
    have h2 := xs_firstTimes_nodup ((l.filter (· != [])).map List.dropLast) []
    exact (h1.and h2).imp fun ⟨h1, h2⟩ => h1.resolve_left h2

theorem xs_nodup_step {root : PElem} (hr : TagsOk root) {s : Step} (h : s.Ok) (hd : s.isDeep = false)
    {l : List (List Nat)} (hn : l.Nodup) : (stepAll root l s).Nodup := by
  cases s with
  | child n ps =>
    refine xs_pairwise_flatMap (fun p _ => xs_sorted_nodup ((xs_sorted_children root p).sublist (xs_selected_sublist hr h p))) ?_
    refine List.Pairwise.imp (fun {p p'} hne q hq q' hq' e => ?_) hn
    subst e
    obtain ⟨i, e1⟩ := xs_mem_selected hr h hq
    obtain ⟨j, e2⟩ := xs_mem_selected hr h hq'
    rw [e1] at e2
    exact hne (List.append_inj' e2 rfl).1
  | deep n ps => cases hd
  | self => exact hn
  | parent => exact xs_firstTimes_nodup _ _

theorem xs_nodup_path {root : PElem} (hr : TagsOk root) : ∀ {ss : List Step}, PathOk ss → (∀ s ∈ ss, s.isDeep = false) →
    ∀ {l : List (List Nat)}, l.Nodup → (ss.foldl (stepAll root) l).Nodup
  | [], _, _, _, h => h
  | s :: ss, ho, hd, l, h => by
    rw [List.foldl_cons]
    exact xs_nodup_path hr (fun x hx => ho x (by simp [hx])) (fun x hx => hd x (by simp [hx]))
      (xs_nodup_step hr (ho s (by simp)) (hd s (by simp)) h)

theorem xs_once {root : PElem} (hr : TagsOk root) : ∀ {ss : List Step}, PathOk ss → (ss.filter (·.isDeep)).length ≤ 1 →
    ∀ {l : List (List Nat)}, l.Pairwise Before → Level l → (ss.foldl (stepAll root) l).Nodup
  | [], _, _, _, h, _ => xs_sorted_nodup h
  | s :: ss, ho, hd, l, h, hl => by
    have ho' : PathOk ss := fun x hx => ho x (by simp [hx])
    rw [List.foldl_cons]
    cases hs : s.isDeep
    · simp only [List.filter_cons, hs, Bool.false_eq_true, if_false] at hd
      exact xs_once hr ho' hd (xs_sorted_step hr (ho s (by simp)) h hl) (xs_level_step hr (ho s (by simp)) hs hl)
    · have hd : (ss.filter (·.isDeep)).length = 0 := by
        simp only [List.filter_cons, hs, if_true, List.length_cons] at hd
        omega
      simp only [List.length_eq_zero_iff, List.filter_eq_nil_iff] at hd
      exact xs_nodup_path hr ho' (fun x hx => by simpa using hd x hx)
        (xs_sorted_nodup (xs_sorted_step hr (ho s (by simp)) h hl))

theorem xs_sorted {root : PElem} (hr : TagsOk root) : ∀ {ss : List Step}, PathOk ss → (∀ s ∈ ss.dropLast, s.isDeep = false) →
    ∀ {l : List (List Nat)}, l.Pairwise Before → Level l → (ss.foldl (stepAll root) l).Pairwise Before
  | [], _, _, _, h, _ => h
  | [s], ho, _, _, h, hl => xs_sorted_step hr (ho s (by simp)) h hl
  | s :: s' :: ss, ho, hd, l, h, hl => by
    rw [List.foldl_cons]
    refine xs_sorted hr (fun x hx => ho x (by simp [hx])) (fun x hx => hd x ?_)
      (xs_sorted_step hr (ho s (by simp)) h hl) (xs_level_step hr (ho s (by simp)) (hd s (by simp)) hl)
    rw [List.dropLast_cons_of_ne_nil (by simp)]
    exact List.mem_cons_of_mem _ hx

end Xacml
