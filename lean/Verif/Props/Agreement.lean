import Verif.Spec.Agreement
import Verif.Props.Selecting

/-!
# C90: designators and selectors agree

With the standard library's ElementTree.
-/
namespace Xacml
open Spec

/-! ## From positions to elements -/

private theorem range_flatMap {α : Type} : ∀ {cs : List PElem} {h : Nat → List α} {f : PElem → List α},
    (∀ i c, cs[i]? = some c → h i = f c) → (List.range cs.length).flatMap h = cs.flatMap f
  | [], _, _, _ => rfl
  | c :: cs, h, f, hh => by
    rw [List.length_cons, List.range_succ_eq_map, List.flatMap_cons, List.flatMap_cons, List.flatMap_map, hh 0 c rfl,
      range_flatMap (cs := cs) (h := fun i => h (i + 1)) (f := f) fun i x hx => hh (i + 1) x (by simpa using hx)]

private theorem filter_flatMap_if {α β : Type} (p : α → Bool) (g : α → List β) : ∀ l : List α,
    (l.filter p).flatMap g = l.flatMap fun a => if p a = true then g a else []
  | [] => rfl
  | a :: l => by
    rw [List.filter_cons]
    split
    · rename_i h; rw [List.flatMap_cons, List.flatMap_cons, filter_flatMap_if p g l, if_pos h]
    · rename_i h; rw [List.flatMap_cons, filter_flatMap_if p g l, if_neg h, List.nil_append]

/-- An element passes predicates about attributes. -/
private def passes (c : PElem) (ps : List (Chars × Chars)) : Bool := ps.all fun p => c.attrib.lookup p.1 == some p.2

private theorem selected_flatMap {α : Type} {root : PElem} (hr : TagsOk root) {t : Chars} {ps : List (Chars × Chars)}
    (hok : (Step.child (.tag t) (ps.map fun p => .attrIs p.1 p.2)).Ok) {g : List Nat → List α} {f : PElem → List α} {p : List Nat}
    {t0 as x y cs} (he : elemAt root p = some (.mk t0 as x y cs))
    (hg : ∀ i c, elemAt root (p ++ [i]) = some c → c.tag = t → g (p ++ [i]) = f c) :
    (selected root (.tag t) (ps.map fun p => .attrIs p.1 p.2) p).flatMap g =
      cs.flatMap fun c => if (c.tag == t && passes c ps) = true then f c else [] := by
  rw [xs_selected hr hok.1 hok.2, List.filter_filter, filter_flatMap_if]
  unfold childrenAt
  rw [he]
  simp only
  rw [List.flatMap_map]
  refine range_flatMap fun i c hc => ?_
  have hel : elemAt root (p ++ [i]) = some c := by
    rw [xs_elem_append, he]
    simp [elemAt, hc]
  have h1 : NameTest.accepts root (.tag t) (p ++ [i]) = (c.tag == t) := by
    unfold NameTest.accepts
    rw [hel]
    cases c; rfl
  have h2 : ((ps.map fun p => Pred.attrIs p.1 p.2).all fun pr => pr.op.holds root (p ++ [i])) = passes c ps := by
    rw [List.all_map]
    unfold passes
    congr 1
    funext a
    simp only [Function.comp, Pred.op, XPred.holds]
    rw [xs_attr]
    unfold attrAt
    rw [hel]
    cases c; rfl
  rw [h1, h2, Bool.and_comm]
  by_cases ht : c.tag = t
  · rw [hg i c hel ht]
  · rw [beq_eq_false_iff_ne.2 ht, Bool.false_and]
    rfl

private theorem each_named_flatMap {α β : Type} {P : XNode → β → Prop} {k : String} {f : PElem → List α} {g : β → List α} :
    ∀ {cs : List PElem} {bs : List β}, Each P (((cs.map PElem.node).filter XNode.isElem).filter fun c => decide (c.name = k)) bs →
    (∀ c ∈ cs, ∀ b, P c.node b → c.node.name = k → f c = g b) →
    (cs.flatMap fun c => if c.node.name = k then f c else []) = bs.flatMap g
  | [], bs, h, _ => by rw [List.map_nil, List.filter_nil, List.filter_nil] at h; cases h; rfl
  | c :: cs, bs, h, hf => by
    have hel : c.node.isElem = true := by cases c; rw [PElem.node]; rfl
    rw [List.map_cons, List.filter_cons_of_pos hel] at h
    by_cases hk : c.node.name = k
    · rw [List.filter_cons_of_pos (by simpa using hk)] at h
      obtain ⟨b, bs', rfl, h1, h2⟩ := h
      rw [List.flatMap_cons, List.flatMap_cons, if_pos hk, hf c (by simp) b h1 hk,
        each_named_flatMap h2 fun c hc => hf c (by simp [hc])]
    · rw [List.filter_cons_of_neg (by simpa using hk)] at h
      rw [List.flatMap_cons, if_neg hk, List.nil_append, each_named_flatMap h fun c hc => hf c (by simp [hc])]

/-! ## Tags and attributes -/

private theorem tag_of_split {t ns : Chars} (ht : TagName t) (h : (splitTag t).1 = some ns) : t = '{' :: ns ++ '}' :: (splitTag t).2 := by
  rcases ht with ht | ⟨ns', name, rfl, hn, -⟩
  · rw [xs_splitTag_plain (xs_plain_head ht)] at h; cases h
  · rw [xs_splitTag_brace hn.2.1] at h ⊢
    cases h
    rfl

private theorem node_tag {c : PElem} (ht : TagName c.tag) (hns : (splitTag c.tag).1 = some requestNs) (k : String) :
    c.node.name = k ↔ c.tag = requestTag k := by
  obtain ⟨t, as, x, y, cs⟩ := c
  have ht : TagName t := ht
  rw [node_name ht]
  show String.ofList (splitTag t).2 = k ↔ t = requestTag k
  have e := tag_of_split ht hns
  constructor
  · intro h
    rw [e, requestTag, ← h]
    simp [PElem.tag] at hns
    simp
  · intro h
    have : (splitTag t).2 = k.toList := by
      have hb : '}' ∉ requestNs := by decide +kernel
      rw [h, requestTag, xs_splitTag_brace hb]
    rw [this]
    simp

private theorem dictGet_map (k : String) : ∀ as : List (Chars × Chars),
    dictGet (as.map fun a => (String.ofList a.1, String.ofList a.2)) k = (as.lookup k.toList).map String.ofList
  | [] => rfl
  | (a, b) :: as => by
    rw [List.map_cons, dictGet, List.lookup_cons]
    by_cases h : String.ofList a = k
    · subst h
      simp
    · have h2 : (k.toList == a) = false := by
        rw [beq_eq_false_iff_ne]
        rintro rfl
        exact h (by simp)
      have h1 : (String.ofList a == k) = false := by rw [beq_eq_false_iff_ne]; exact h
      rw [h2, dictGet_map k as]
      simp [h1]

private theorem node_attr (c : PElem) (k : String) : c.node.attr k = (c.attrib.lookup k.toList).map String.ofList := by
  cases c
  rw [PElem.node]
  exact dictGet_map k _

private theorem pass_iff {c : PElem} {k v : String} : (c.attrib.lookup k.toList == some v.toList) = (c.node.attr k == some v) := by
  rw [node_attr, Bool.eq_iff_iff, beq_iff_eq, beq_iff_eq]
  cases c.attrib.lookup k.toList with
  | none => simp
  | some a =>
    simp only [Option.map_some, Option.some.injEq]
    constructor
    · rintro rfl; simp
    · rintro rfl; simp

/-! ## Values -/

/-- The texts of the children of an element that is an attribute. -/
private def attrTexts (c : PElem) : List (Option Native) :=
  c.children.flatMap fun v => if v.node.name = "AttributeValue" then [v.text.map fun t => .str (String.ofList t)] else []

private theorem elems_node (c : PElem) : elems c.node = c.children.map PElem.node := by
  obtain ⟨t, as, x, y, cs⟩ := c
  rw [elems, node_children]
  refine List.filter_eq_self.2 fun n hn => ?_
  obtain ⟨e, -, rfl⟩ := List.mem_map.1 hn
  cases e
  rw [PElem.node]
  rfl

private theorem attrTexts_eq {cm : List (String × AVClass)} (hcm : OwnNames cm) {dt : String} : ∀ {l : List PElem} {vs : List AttrVal},
    Each (IsCtxValue cm dt) (l.map PElem.node) vs →
    (l.flatMap fun v => if v.node.name = "AttributeValue" then [v.text.map fun t => Native.str (String.ofList t)] else []) = vs.map (·.value) ∧
      ∀ v ∈ vs, v.dataType = dt
  | [], vs, h => by rw [List.map_nil] at h; cases h; exact ⟨rfl, by simp⟩
  | e :: l, vs, h => by
    obtain ⟨v, vs', rfl, ⟨h1, c, h2, h3, h4, h5⟩, h6⟩ := h
    obtain ⟨k1, k2⟩ := attrTexts_eq hcm h6
    constructor
    · rw [List.flatMap_cons, if_pos h1, k1, List.map_cons]
      congr 1
      obtain ⟨t, as, x, y, cs⟩ := e
      rw [PElem.node] at h5
      rcases h5 with ⟨h5, h6⟩ | ⟨s, h5, -, h6⟩
      · have h5 : x.map String.ofList = none := h5
        cases x with
        | none => rw [h6]; rfl
        | some x => cases h5
      · have h5 : x.map String.ofList = some s := h5
        cases x with
        | none => cases h5
        | some x => cases h5; rw [h6]; rfl
    · intro v' hv'
      rcases List.mem_cons.1 hv' with rfl | hv'
      · rw [h4, hcm dt c h2]
      · exact k2 v' hv'

/-- The designator that asks for an attribute. -/
private def asks (i dt : String) (issuer : Option String) (must : Bool) : Designator :=
  { attributeId := some i, dataType := some dt, issuer := issuer, mustBePresent := must }

private theorem designated_flatMap (d : Designator) (as : List Attribute) :
    designated d as = as.flatMap fun a => if AttrSelected d a then a.values.filter (fun v => decide (some v.dataType = d.dataType)) else [] := by
  unfold designated
  rw [filter_flatMap_if]
  simp

private theorem map_flatMap' {α β γ : Type} (l : List α) (f : α → List β) (g : β → γ) : (l.flatMap f).map g = l.flatMap fun a => (f a).map g := by
  induction l with
  | nil => rfl
  | cons a l ih => simp [List.flatMap_cons, ih]

/-- What the path asks of the attributes. -/
private def wants (i dt : String) (issuer : Option String) : List (Chars × Chars) :=
  [("AttributeId".toList, i.toList), ("DataType".toList, dt.toList)] ++
    match issuer with
    | none => []
    | some s => [("Issuer".toList, s.toList)]

private theorem attribute_texts {cm : List (String × AVClass)} (hcm : OwnNames cm) {c : PElem} {a : Attribute} (h : IsAttribute cm c.node a)
    (i dt : String) (issuer : Option String) (must : Bool) :
    (if passes c (wants i dt issuer) = true then attrTexts c else []) =
      (if AttrSelected (asks i dt issuer must) a then
        a.values.filter (fun v => decide (some v.dataType = (asks i dt issuer must).dataType)) else []).map (·.value) := by
  obtain ⟨-, -, i', dt', h1, h2, h3, h4, h5, h6⟩ := h
  rw [elems_node] at h6
  obtain ⟨k1, k2⟩ := attrTexts_eq hcm h6
  have hp : passes c (wants i dt issuer) = true ↔ AttrSelected (asks i dt issuer must) a := by
    unfold passes wants AttrSelected asks
    rw [List.all_append, Bool.and_eq_true]
    simp only [List.all_cons, List.all_nil, Bool.and_true, Bool.and_eq_true, pass_iff, beq_iff_eq, h1, h2, h3, h4]
    cases issuer with
    | none => simp
    | some s =>
      simp only [List.all_cons, List.all_nil, Bool.and_true, pass_iff, beq_iff_eq, h5, Option.some.injEq]
      constructor
      · rintro ⟨⟨e1, e2⟩, e3⟩; exact ⟨e1, e2, fun _ e => e ▸ e3⟩
      · rintro ⟨e1, e2, e3⟩; exact ⟨⟨e1, e2⟩, e3 s rfl⟩
  by_cases hs : AttrSelected (asks i dt issuer must) a
  · rw [if_pos (hp.2 hs), if_pos hs]
    have hdt : dt' = dt := by
      have := hs.2.1
      rw [h4] at this
      exact Option.some.inj this
    subst hdt
    rw [List.filter_eq_self.2]
    · exact k1
    · intro v hv
      rw [k2 v hv]
      simp [asks]
  · rw [if_neg (fun h => hs (hp.1 h)), if_neg hs]
    rfl

/-- The texts the path finds in a part of a request. -/
private def partTexts (i dt : String) (issuer : Option String) (c : PElem) : List (Option Native) :=
  c.children.flatMap fun a => if a.node.name = "Attribute" then (if passes a (wants i dt issuer) = true then attrTexts a else []) else []

private theorem part_texts {cm : List (String × AVClass)} (hcm : OwnNames cm) {c : PElem} {as : List Attribute} (h : HasAttributes cm c.node as)
    (i dt : String) (issuer : Option String) (must : Bool) :
    partTexts i dt issuer c = (designated (asks i dt issuer must) as).map (·.value) := by
  unfold HasAttributes childrenNamed elems at h
  have hc : c.node.children = c.children.map PElem.node := by cases c; exact node_children
  rw [hc] at h
  rw [partTexts, each_named_flatMap h (fun a _ b hab _ => attribute_texts hcm hab i dt issuer must), designated_flatMap, map_flatMap']

/-! ## Paths -/

private theorem plain_word {k : String} {c : Char} {cs : Chars} (e : k.toList = c :: cs) (h : (c :: cs).all Char.isAlpha = true) :
    PlainName k.toList := by
  rw [List.all_cons, Bool.and_eq_true, List.all_eq_true] at h
  exact ⟨c, cs, e, .inl h.1, fun d hd => .inl (.inl (h.2 d hd))⟩

private theorem requestTag_ok {k : String} (h : PlainName k.toList) : TagName (requestTag k) :=
  .inr ⟨requestNs, k.toList, rfl, by unfold Namespace; decide +kernel, h⟩

private theorem plain_part (cat : Category) : PlainName (partName cat).toList := by
  cases cat
  · exact plain_word (k := "Subject") rfl (by decide +kernel)
  · exact plain_word (k := "Resource") rfl (by decide +kernel)
  · exact plain_word (k := "Action") rfl (by decide +kernel)
  · exact plain_word (k := "Environment") rfl (by decide +kernel)

private theorem attributePath_eq (cat : Category) (i dt : String) (issuer : Option String) :
    attributePath cat i dt issuer =
      [.child (.tag (requestTag (partName cat))) (([] : List (Chars × Chars)).map fun p => .attrIs p.1 p.2),
       .child (.tag (requestTag "Attribute")) ((wants i dt issuer).map fun p => .attrIs p.1 p.2),
       .child (.tag (requestTag "AttributeValue")) (([] : List (Chars × Chars)).map fun p => .attrIs p.1 p.2)] := by
  unfold attributePath wants
  cases issuer <;> rfl

private theorem step_ok {k : String} (hk : PlainName k.toList) {ps : List (Chars × Chars)}
    (h : ∀ p ∈ ps, TagName p.1 ∧ ¬ ('\'' ∈ p.2 ∧ '"' ∈ p.2)) :
    (Step.child (.tag (requestTag k)) (ps.map fun p => .attrIs p.1 p.2)).Ok := by
  refine ⟨requestTag_ok hk, ?_, ?_, ?_⟩
  · intro pr hpr
    obtain ⟨p, hp, rfl⟩ := List.mem_map.1 hpr
    exact h p hp
  · intro pr hpr
    obtain ⟨p, hp, rfl⟩ := List.mem_map.1 (List.mem_of_mem_tail hpr)
    rfl
  · rintro ⟨pr, hpr, h⟩
    obtain ⟨p, hp, rfl⟩ := List.mem_map.1 hpr
    cases h

private theorem wants_ok {i dt : String} {issuer : Option String} (hi : Quotable i) (hd : Quotable dt)
    (hs : ∀ s, issuer = some s → Quotable s) : ∀ p ∈ wants i dt issuer, TagName p.1 ∧ ¬ ('\'' ∈ p.2 ∧ '"' ∈ p.2) := by
  have h1 : TagName "AttributeId".toList := (.inl (plain_word rfl (by decide +kernel)))
  have h2 : TagName "DataType".toList := (.inl (plain_word rfl (by decide +kernel)))
  have h3 : TagName "Issuer".toList := (.inl (plain_word rfl (by decide +kernel)))
  intro p hp
  unfold wants at hp
  rcases List.mem_append.1 hp with hp | hp
  · simp only [List.mem_cons, List.not_mem_nil, or_false] at hp
    rcases hp with rfl | rfl
    · exact ⟨h1, hi⟩
    · exact ⟨h2, hd⟩
  · cases issuer with
    | none => cases hp
    | some s =>
      simp only [List.mem_cons, List.not_mem_nil, or_false] at hp
      subst hp
      exact ⟨h3, hs s rfl⟩

private theorem at_child {root c e : PElem} {p : List Nat} {i : Nat} (h : elemAt root p = some c) (h' : elemAt root (p ++ [i]) = some e) :
    e ∈ c.children := by
  rw [xs_elem_append, h] at h'
  obtain ⟨t, as, x, y, cs⟩ := c
  simp only [Option.bind_some, elemAt] at h'
  cases hc : cs[i]? with
  | none => rw [hc] at h'; cases h'
  | some d =>
    rw [hc] at h'
    cases h'
    exact List.mem_of_getElem? hc

private theorem child_at {root c e : PElem} {p : List Nat} (h : elemAt root p = some c) (h' : e ∈ c.children) :
    ∃ i, elemAt root (p ++ [i]) = some e := by
  obtain ⟨t, as, x, y, cs⟩ := c
  obtain ⟨i, hi⟩ := List.mem_iff_getElem?.1 h'
  refine ⟨i, ?_⟩
  rw [xs_elem_append, h]
  have hi : cs[i]? = some e := hi
  simp [elemAt, hi]

private theorem tag_at {root c : PElem} (hr : TagsOk root) {p : List Nat} (h : elemAt root p = some c) : TagName c.tag := by
  obtain ⟨t, as, x, y, cs⟩ := c
  exact hr p t as x y cs h

private theorem split_name {c : PElem} (ht : TagName c.tag) {k : String} (h : c.node.name = k) : (splitTag c.tag).2 = k.toList := by
  obtain ⟨t, as, x, y, cs⟩ := c
  have ht : TagName t := ht
  rw [node_name ht] at h
  show (splitTag t).2 = _
  rw [← h]
  simp

private theorem tag_name {c : PElem} (ht : TagName c.tag) {k : String} (h : c.tag = requestTag k) : c.node.name = k := by
  obtain ⟨t, as, x, y, cs⟩ := c
  have ht : TagName t := ht
  have h : t = requestTag k := h
  have hb : '}' ∉ requestNs := by decide +kernel
  rw [node_name ht]
  show String.ofList (splitTag t).2 = _
  rw [h, requestTag, xs_splitTag_brace hb]
  simp

private theorem if_and_true {α : Type} {p : Prop} [Decidable p] {b c : Bool} (h : p ↔ b = true) {x : List α} :
    (if (b && c) = true then x else []) = if p then (if c = true then x else []) else [] := by
  by_cases hp : p
  · rw [if_pos hp, h.1 hp, Bool.true_and]
  · rw [if_neg hp]
    have : b = false := by cases b <;> simp_all
    rw [this, Bool.false_and]
    rfl

private theorem flatMap_congr' {α β : Type} {l : List α} {f g : α → List β} (h : ∀ a ∈ l, f a = g a) : l.flatMap f = l.flatMap g := by
  induction l with
  | nil => rfl
  | cons a l ih => rw [List.flatMap_cons, List.flatMap_cons, h a (by simp), ih fun b hb => h b (by simp [hb])]

/-- What the path finds, part by part. -/
private theorem path_texts {root : PElem} (hr : TagsOk root) (hc : InContext root) (cat : Category) {i dt : String} {issuer : Option String}
    (hi : Quotable i) (hd : Quotable dt) (hs : ∀ s, issuer = some s → Quotable s) :
    selectText root (some (pathText (attributePath cat i dt issuer))) =
      .ok (root.children.flatMap fun c => if c.node.name = partName cat then partTexts i dt issuer c else []) := by
  have hA : PlainName "Attribute".toList := plain_word rfl (by decide +kernel)
  have hV : PlainName "AttributeValue".toList := plain_word rfl (by decide +kernel)
  have ok1 := step_ok (plain_part cat) (ps := []) (by simp)
  have ok2 := step_ok hA (wants_ok hi hd hs)
  have ok3 := step_ok hV (ps := []) (by simp)
  have hok : PathOk (attributePath cat i dt issuer) := by
    rw [attributePath_eq]
    intro s hs
    simp only [List.mem_cons, List.not_mem_nil, or_false] at hs
    rcases hs with rfl | rfl | rfl
    · exact ok1
    · exact ok2
    · exact ok3
  rw [select_path hr (by unfold attributePath; simp) hok, attributePath_eq]
  congr 1
  simp only [List.foldl_cons, List.foldl_nil, stepAll, List.flatMap_cons, List.flatMap_nil, List.append_nil]
  rw [map_flatMap', List.flatMap_assoc]
  -- values of an attribute
  have s3 : ∀ (i j : Nat) a, elemAt root ([i] ++ [j]) = some a → a.node.name = "Attribute" →
      ((selected root (.tag (requestTag "AttributeValue")) (([] : List (Chars × Chars)).map fun p => .attrIs p.1 p.2) ([i] ++ [j])).map
        (textAt root)) = attrTexts a := by
    intro i j a ha hn
    have hta := tag_at hr ha
    have hsp := split_name hta hn
    have e : ∀ l : List (List Nat), l.map (textAt root) = l.flatMap fun q => [textAt root q] := by
      intro l; induction l with
      | nil => rfl
      | cons q l ih => rw [List.map_cons, List.flatMap_cons, ih]; rfl
    obtain ⟨t, as, x, y, cs⟩ := a
    rw [e, selected_flatMap hr ok3 (f := fun v => [v.text.map fun t => Native.str (String.ofList t)]) ha]
    · unfold attrTexts
      refine flatMap_congr' fun v hv => ?_
      obtain ⟨k, hk⟩ := child_at ha hv
      have htv := tag_at hr hk
      have hns : (splitTag v.tag).1 = some requestNs := by
        obtain ⟨t', as', x', y', cs'⟩ := v
        exact hc.values i j k t as x y cs t' as' x' y' cs' ha hsp hk
      rw [if_and_true (p := v.node.name = "AttributeValue") (by rw [node_tag htv hns, beq_iff_eq])]
      simp only [passes, List.all_nil, if_true]
    · intro k v hk hv
      unfold textAt
      rw [hk]
      obtain ⟨t', as', x', y', cs'⟩ := v
      cases x' <;> rfl
  -- attributes of a part
  have s2 : ∀ (i' : Nat) c, elemAt root ([] ++ [i']) = some c →
      ((selected root (.tag (requestTag "Attribute")) ((wants i dt issuer).map fun p => .attrIs p.1 p.2) ([] ++ [i'])).flatMap fun q =>
        (selected root (.tag (requestTag "AttributeValue")) (([] : List (Chars × Chars)).map fun p => .attrIs p.1 p.2) q).map (textAt root)) =
        partTexts i dt issuer c := by
    intro i' c hc'
    obtain ⟨t, as, x, y, cs⟩ := c
    rw [selected_flatMap hr ok2 (f := attrTexts) hc']
    · unfold partTexts
      refine flatMap_congr' fun a ha => ?_
      obtain ⟨j, hj⟩ := child_at hc' ha
      have hta := tag_at hr hj
      refine if_and_true ?_
      rw [beq_iff_eq]
      by_cases hn : a.node.name = "Attribute"
      · refine node_tag hta ?_ _
        have hsp := split_name hta hn
        obtain ⟨t', as', x', y', cs'⟩ := a
        exact hc.attributes i' j t' as' x' y' cs' hj hsp
      · exact iff_of_false hn fun e => hn (tag_name hta e)
    · intro j a ha ht
      exact s3 i' j a ha (tag_name (tag_at hr ha) ht)
  obtain ⟨t, as, x, y, cs⟩ := root
  rw [selected_flatMap hr ok1 (f := partTexts i dt issuer) (p := []) rfl]
  · refine flatMap_congr' fun c hc' => ?_
    obtain ⟨j, hj⟩ := child_at (root := .mk t as x y cs) (c := .mk t as x y cs) (p := []) rfl hc'
    have htc := tag_at hr hj
    rw [if_and_true (p := c.node.name = partName cat)]
    · simp only [passes, List.all_nil, if_true]
    · rw [beq_iff_eq]
      refine node_tag htc ?_ _
      obtain ⟨t', as', x', y', cs'⟩ := c
      exact hc.parts j t' as' x' y' cs' hj
  · intro j c hj _
    exact s2 j c hj

/-! ## Requests -/

private theorem children_node (c : PElem) : c.node.children = c.children.map PElem.node := by
  cases c
  exact node_children

private theorem designated_parts (d : Designator) {β : Type} (f : β → List Attribute) : ∀ l : List β,
    designated d (l.flatMap f) = l.flatMap fun b => designated d (f b)
  | [] => rfl
  | b :: l => by
    rw [List.flatMap_cons, List.flatMap_cons, ← designated_parts d f l]
    unfold designated
    rw [List.filter_append, List.flatMap_append]

/-- **C90.** The path that spells out what a designator asks for selects the values the designator designates: the
same ones, in the same order. If the designator asks for the action or the environment, the request must have one. -/
theorem C90_values (cm : List (String × AVClass)) (hcm : OwnNames cm) (root : PElem) (hr : TagsOk root) (hc : InContext root)
    (x : RequestX) (hx : IsRequest cm root.node x) (pip : Option Pip) (sel : Option XPathEngine) (cat : Category)
    (hone : cat = .action ∨ cat = .environment → (childrenNamed root.node (partName cat)).length = 1)
    (i dt : String) (issuer : Option String) (must : Bool) (hi : Quotable i) (hd : Quotable dt) (hs : ∀ s, issuer = some s → Quotable s) :
    ∃ attrs, attributesOf cat (x.toRequest pip sel).data = some attrs ∧
      selectText root (some (pathText (attributePath cat i dt issuer))) =
        .ok ((designated { attributeId := some i, dataType := some dt, issuer := issuer, mustBePresent := must } attrs).map (·.value)) := by
  obtain ⟨-, -, h1, h2, h3, h4⟩ := hx
  rw [path_texts hr hc cat hi hd hs]
  have one : ∀ k o, LastOf (IsPart cm k) (childrenNamed root.node k) o → (childrenNamed root.node k).length = 1 →
      ∃ attrs, o = some attrs ∧ (root.children.flatMap fun c => if c.node.name = k then partTexts i dt issuer c else []) =
        (designated (asks i dt issuer must) attrs).map (·.value) := by
    rintro k o ⟨bs, hbs, rfl⟩ hl
    have e : (root.children.flatMap fun c => if c.node.name = k then partTexts i dt issuer c else []) =
        bs.flatMap fun b => (designated (asks i dt issuer must) b).map (·.value) := by
      refine each_named_flatMap (P := IsPart cm k) ?_ fun c _ b h _ => part_texts hcm h.2 i dt issuer must
      rw [← children_node]
      exact hbs
    match hn : childrenNamed root.node k, hl with
    | [n], _ =>
      rw [hn] at hbs
      obtain ⟨b, bs', rfl, -, hbs'⟩ := hbs
      cases hbs'
      exact ⟨b, rfl, by rw [e]; simp⟩
  cases cat with
  | subject =>
    refine ⟨_, rfl, ?_⟩
    rw [RequestX.toRequest, designated_parts, map_flatMap',
      each_named_flatMap (P := IsSubject cm) (g := fun b : CtxSubject => (designated (asks i dt issuer must) b.attributes).map (·.value)) ?_
        fun c _ b h _ => part_texts hcm h.2.1 i dt issuer must]
    · rfl
    · rw [← children_node]
      exact h1
  | resource =>
    refine ⟨_, rfl, ?_⟩
    rw [RequestX.toRequest, designated_parts, map_flatMap', List.flatMap_map,
      each_named_flatMap (P := IsResource cm) (g := fun b : ResourceX => (designated (asks i dt issuer must) b.attributes).map (·.value)) ?_
        fun c _ b h _ => part_texts hcm h.2.1 i dt issuer must]
    · rfl
    · rw [← children_node]
      exact h2
  | action =>
    obtain ⟨attrs, ha, e⟩ := one "Action" _ h3 (hone (.inl rfl))
    exact ⟨attrs, ha, by rw [← asks, ← e]; rfl⟩
  | environment =>
    obtain ⟨attrs, ha, e⟩ := one "Environment" _ h4 (hone (.inr rfl))
    exact ⟨attrs, ha, by rw [← asks, ← e]; rfl⟩

private theorem attribute_read {cm : List (String × AVClass)} {cat : Category} {n : XNode} {x : RequestX}
    (hx : IsRequest cm n x) {pip : Option Pip} {sel : Option XPathEngine} {attrs : List Attribute}
    (ha : attributesOf cat (x.toRequest pip sel).data = some attrs) : ∀ a ∈ attrs, ∃ n, IsAttribute cm n a := by
  obtain ⟨-, -, h1, h2, h3, h4⟩ := hx
  have part : ∀ {n as}, HasAttributes cm n as → ∀ a ∈ as, ∃ n, IsAttribute cm n a := fun h a ha => by
    obtain ⟨n, -, hn⟩ := each_mem_right h a ha
    exact ⟨n, hn⟩
  have last : ∀ {k l o}, LastOf (IsPart cm k) l o → ∀ as, o = some as → ∀ a ∈ as, ∃ n, IsAttribute cm n a := by
    rintro k l o ⟨bs, hbs, rfl⟩ as h
    obtain ⟨n, -, hn⟩ := each_mem_right hbs as (List.mem_of_getLast? h)
    exact part hn.2
  intro a hm
  cases cat with
  | subject =>
    cases ha
    obtain ⟨s, hs, has⟩ := List.mem_flatMap.1 hm
    obtain ⟨n, -, hn⟩ := each_mem_right h1 s hs
    exact part hn.2.1 a has
  | resource =>
    cases ha
    obtain ⟨s, hs, has⟩ := List.mem_flatMap.1 hm
    obtain ⟨r, hr, rfl⟩ := List.mem_map.1 hs
    obtain ⟨n, -, hn⟩ := each_mem_right h2 r hr
    exact part hn.2.1 a has
  | action => exact last h3 attrs ha a hm
  | environment => exact last h4 attrs ha a hm

private theorem designated_read {cm : List (String × AVClass)} (hcm : OwnNames cm) {cat : Category} {n : XNode} {x : RequestX}
    (hx : IsRequest cm n x) {pip : Option Pip} {sel : Option XPathEngine} {attrs : List Attribute}
    (ha : attributesOf cat (x.toRequest pip sel).data = some attrs) {d : Designator} {dt : String} (hd : d.dataType = some dt)
    {c : AVClass} (hc : cm.lookup dt = some c) : ∀ v ∈ designated d attrs, v.cls = c ∧ v.dataType = dt ∧
      (v.value = none ∨ ∃ s, v.value = some (.str s) ∧ c.native = .str) := by
  intro v hv
  obtain ⟨a, hm, hv⟩ := List.mem_flatMap.1 hv
  obtain ⟨hm, hsel⟩ := List.mem_filter.1 hm
  have hsel : AttrSelected d a := by simpa using hsel
  obtain ⟨hv, -⟩ := List.mem_filter.1 hv
  obtain ⟨n, -, -, i, dt', -, -, -, h4, -, h6⟩ := attribute_read hx ha a hm
  have : dt' = dt := by
    have := hsel.2.1
    rw [h4, hd] at this
    exact Option.some.inj this
  subst this
  obtain ⟨m, -, -, c', h1, h2, h3, h5⟩ := each_mem_right h6 v hv
  rw [hc] at h1
  cases h1
  refine ⟨h2, by rw [h3, hcm _ _ hc], ?_⟩
  rcases h5 with ⟨-, h⟩ | ⟨s, -, hn, h⟩
  · exact .inl h
  · exact .inr ⟨s, h, hn⟩

private theorem path_text_some {root : PElem} (hr : TagsOk root) (h : AllWithText root) (k : String) (i dt : String) (issuer : Option String) :
    ∀ o ∈ root.children.flatMap (fun c => if c.node.name = k then partTexts i dt issuer c else []), o ≠ none := by
  rintro o ho rfl
  obtain ⟨c, hc, ho⟩ := List.mem_flatMap.1 ho
  split at ho
  · obtain ⟨a, ha, ho⟩ := List.mem_flatMap.1 ho
    split at ho
    · split at ho
      · obtain ⟨v, hv, ho⟩ := List.mem_flatMap.1 ho
        split at ho
        · rename_i hn
          have ho := List.mem_singleton.1 ho
          obtain ⟨i1, h1⟩ := child_at (root := root) (c := root) (p := []) rfl hc
          obtain ⟨i2, h2⟩ := child_at h1 ha
          obtain ⟨i3, h3⟩ := child_at h2 hv
          have hs := split_name (tag_at hr h3) hn
          obtain ⟨t, as, x, y, cs⟩ := v
          cases x with
          | some x => cases ho
          | none => exact h i1 i2 i3 t as y cs h3 hs
        · cases ho
      · cases ho
    · cases ho
  · cases ho

/-- **C90.** A selector whose path spells out what a designator asks for gives what the designator gives: the same bag, or
the same error if the attribute must be present and is not. All attribute values of the request must have text. -/
theorem C90_same (env : Env) (hcm : OwnNames env.classMap) (root : PElem) (hr : TagsOk root) (hc : InContext root)
    (ht : AllWithText root) (x : RequestX) (hx : IsRequest env.classMap root.node x) (pip : Option Pip) (cat : Category) (d : Designator)
    (hs : Spellable env.classMap root pip cat d) (w : World) :
    (byPath (fun _ _ => true) (.designator cat d)).expr.evaluate env (some (x.toRequest pip (some (selectText root)))) w =
      designatorEval env cat d (some (x.toRequest pip (some (selectText root)))) w := by
  obtain ⟨i, dt, h1, h2, h3, h4, h5, h6, h7, h8⟩ := hs
  obtain ⟨c, hcl⟩ := Option.isSome_iff_exists.1 h3
  obtain ⟨attrs, ha, hv⟩ := C90_values env.classMap hcm root hr hc x hx pip (some (selectText root)) cat h7 i dt d.issuer d.mustBePresent h4 h5 h6
  have hd : d = { attributeId := some i, dataType := some dt, issuer := d.issuer, mustBePresent := d.mustBePresent } := by
    cases d; cases h1; cases h2; rfl
  rw [← hd] at hv
  have hread := designated_read hcm hx ha h2 hcl
  have hsome : ∀ v ∈ designated d attrs, ∃ s, v.value = some (.str s) ∧ c.native = .str := by
    intro v hm
    rcases (hread v hm).2.2 with hn | h
    · exfalso
      have hp := path_texts hr hc cat (issuer := d.issuer) h4 h5 h6
      rw [hv] at hp
      injection hp with hp
      refine path_text_some hr ht (partName cat) i dt d.issuer none ?_ rfl
      rw [← hp]
      exact List.mem_map.2 ⟨v, hm, hn⟩
    · exact h
  rw [C13_designator_exact env cat d _ w attrs h8 ha fun v hm =>
    ⟨dt, c, h2, hcl, by rw [AttrVal.isInst, (hread v hm).1]; cases c; simp [AVClass.isSub]⟩]
  have hmap : ∀ vs : List AttrVal, (∀ v ∈ vs, v.cls = c ∧ v.dataType = dt ∧ ∃ s, v.value = some (.str s) ∧ c.native = .str) →
      ∃ ns : List Native, vs.map (·.value) = ns.map some ∧ (∀ n ∈ ns, n.isInstance c.native = true) ∧
        ns.map (fun n => ({ cls := c, dataType := dt, value := some n } : AttrVal)) = vs := by
    intro vs
    induction vs with
    | nil => intro _; exact ⟨[], rfl, by simp, rfl⟩
    | cons v vs ih =>
      intro h
      obtain ⟨ns, e1, e2, e3⟩ := ih fun v hv => h v (by simp [hv])
      obtain ⟨g1, g2, s, g3, g4⟩ := h v (by simp)
      refine ⟨.str s :: ns, by rw [List.map_cons, List.map_cons, e1, g3], ?_, ?_⟩
      · intro n hn
        rcases List.mem_cons.1 hn with rfl | hn
        · rw [g4]; rfl
        · exact e2 n hn
      · rw [List.map_cons, e3, ← g1, ← g2, ← g3]
  obtain ⟨ns, e1, e2, e3⟩ := hmap _ fun v hm => ⟨(hread v hm).1, (hread v hm).2.1, hsome v hm⟩
  rw [e1] at hv
  have hnil : ns = [] ↔ designated d attrs = [] := by rw [← e3, List.map_eq_nil_iff]
  simp only [byPath, h1, h2, Reading.expr, Expr.evaluate]
  rw [C55_selector_values env _ _ (selectText root) dt c ns rfl rfl hcl hv e2, e3]
  unfold answer
  simp only [hnil, h2, classLookup, hcl]
  split <;> rfl

/-! ## Policies -/

mutual
private theorem expr_rewrite (env : Env) {ctx : Ctx} {f : Reading → Reading} : (e : Expr) →
    (∀ l, InExpr l e → (f l).expr.evaluate env ctx = l.expr.evaluate env ctx) → (rewriteExpr f e).evaluate env ctx = e.evaluate env ctx
  | .value v, _ => rfl
  | .designator cat d, h => h _ (.designator rfl)
  | .selector s, h => h _ (.selector rfl)
  | .apply fn args, h => by
    simp only [rewriteExpr, Expr.evaluate]
    rw [exprs_rewrite env args fun e he l hl => h l (.apply he hl)]
private theorem exprs_rewrite (env : Env) {ctx : Ctx} {f : Reading → Reading} : (es : List Expr) →
    (∀ e ∈ es, ∀ l, InExpr l e → (f l).expr.evaluate env ctx = l.expr.evaluate env ctx) →
    Expr.evaluateList env ctx (rewriteExprs f es) = Expr.evaluateList env ctx es
  | [], _ => rfl
  | e :: es, h => by
    simp only [rewriteExprs, Expr.evaluateList]
    rw [expr_rewrite env e (h e (by simp)), exprs_rewrite env es fun e he => h e (by simp [he])]
end

private theorem readsBy_values (env : Env) (ctx : Ctx) (m : Match) (l : Reading) :
    (readsBy m l).requestValues env ctx = l.expr.evaluate env ctx := by
  cases l <;> rfl

private theorem matchLoop_congr (env : Env) {m m' : Match} (h : matchOne env m' = matchOne env m) : ∀ vs, matchLoop env m' vs = matchLoop env m vs
  | [] => rfl
  | v :: vs => by simp only [matchLoop]; rw [h, matchLoop_congr env h vs]

private theorem match_rewrite (env : Env) {ctx : Ctx} {f : Reading → Reading} (m : Match)
    (h : ∀ l, InMatch l m → (f l).expr.evaluate env ctx = l.expr.evaluate env ctx) :
    (rewriteMatch f m).evaluate env ctx = m.evaluate env ctx := by
  have hv : (rewriteMatch f m).requestValues env ctx = m.requestValues env ctx := by
    unfold rewriteMatch
    cases hd : m.designator with
    | some p =>
      obtain ⟨cat, d⟩ := p
      simp only
      rw [readsBy_values, h _ (.inl ⟨cat, d, hd, rfl⟩), Match.requestValues, hd]
      rfl
    | none =>
      cases hs : m.selector with
      | none => simp only
      | some s =>
        simp only
        rw [readsBy_values, h _ (.inr ⟨s, hs, rfl⟩), Match.requestValues, hd, hs]
        rfl
  have reads : ∀ l, matchOne env (readsBy m l) = matchOne env m := by intro l; cases l <;> rfl
  have ho : matchOne env (rewriteMatch f m) = matchOne env m := by
    unfold rewriteMatch
    cases m.designator with
    | some p => exact reads _
    | none =>
      cases m.selector with
      | none => rfl
      | some s => exact reads _
  have hl := matchLoop_congr env ho
  unfold Match.evaluate
  rw [hv]
  simp only [hl]

private theorem matches_rewrite (env : Env) {ctx : Ctx} {f : Reading → Reading} (ms : List Match)
    (h : ∀ m ∈ ms, ∀ l, InMatch l m → (f l).expr.evaluate env ctx = l.expr.evaluate env ctx) :
    evalMatches env ctx (ms.map (rewriteMatch f)) = evalMatches env ctx ms := by
  induction ms with
  | nil => rfl
  | cons m ms ih =>
    simp only [List.map_cons, evalMatches]
    rw [match_rewrite env m (h m (by simp)), ih fun m hm => h m (by simp [hm])]

private theorem section_rewrite (env : Env) {ctx : Ctx} {f : Reading → Reading} (cs : List TargetChild)
    (h : ∀ c ∈ cs, ∀ m ∈ c.matches_, ∀ l, InMatch l m → (f l).expr.evaluate env ctx = l.expr.evaluate env ctx) :
    matchSection env ctx (cs.map fun c => ⟨c.matches_.map (rewriteMatch f)⟩) = matchSection env ctx cs := by
  have : ∀ b, sectionLoop env ctx b (cs.map fun c => ⟨c.matches_.map (rewriteMatch f)⟩) = sectionLoop env ctx b cs := by
    induction cs with
    | nil => intro; rfl
    | cons c cs ih =>
      intro b
      simp only [List.map_cons, sectionLoop, matchChild]
      rw [matches_rewrite env c.matches_ (h c (by simp))]
      congr 1
      funext b'
      exact ih (fun c hc => h c (by simp [hc])) _
  unfold matchSection
  rw [this, List.length_map]

private theorem target_rewrite (env : Env) {ctx : Ctx} {f : Reading → Reading} (t : Option Target)
    (h : ∀ l, InTarget l t → (f l).expr.evaluate env ctx = l.expr.evaluate env ctx) :
    targetMatch env (t.map (rewriteTarget f)) ctx = targetMatch env t ctx := by
  cases t with
  | none => rfl
  | some t =>
    have sec : ∀ cs, (∀ c ∈ cs, c ∈ t.subjects ++ t.resources ++ t.actions ++ t.environments) →
        matchSection env ctx (cs.map fun c => ⟨c.matches_.map (rewriteMatch f)⟩) = matchSection env ctx cs := fun cs hcs =>
      section_rewrite env cs fun c hc m hm l hl => h l ⟨t, rfl, c, hcs c hc, m, hm, hl⟩
    simp only [targetMatch, Target.match_, Option.map_some, rewriteTarget]
    rw [sec t.subjects (by simp +contextual), sec t.resources (by simp +contextual),
      sec t.actions (by simp +contextual), sec t.environments (by simp +contextual)]

private theorem rule_rewrite (env : Env) {ctx : Ctx} {f : Reading → Reading} (rule : Rule)
    (h : ∀ l, InRule l rule → (f l).expr.evaluate env ctx = l.expr.evaluate env ctx) :
    (rewriteRule f rule).child env ctx = rule.child env ctx := by
  have ht := target_rewrite env rule.target fun l hl => h l (.inl hl)
  unfold Rule.child Rule.evaluate Rule.body
  simp only [rewriteRule]
  rw [ht]
  cases hcond : rule.condition with
  | none => rfl
  | some c =>
    have hc : Condition.evaluate env { c with expression := c.expression.map (rewriteExpr f) } ctx = c.evaluate env ctx := by
      unfold Condition.evaluate
      cases he : c.expression with
      | none => rfl
      | some e => exact expr_rewrite env e fun l hl => h l (.inr ⟨c, e, hcond, he, hl⟩)
    simp only [Option.map_some, hc]

mutual
private theorem policy_rewrite (env : Env) {ctx : Ctx} {f : Reading → Reading} : (p : PolicyNode) →
    (∀ l, InPolicy l p → (f l).expr.evaluate env ctx = l.expr.evaluate env ctx) → (rewrite f p).evaluate env ctx = p.evaluate env ctx
  | .policy hdr rules, h => by
    have hr : (rules.map (rewriteRule f)).map (Rule.child env ctx) = rules.map (Rule.child env ctx) := by
      rw [List.map_map]
      exact List.map_congr_left fun rule hm => rule_rewrite env rule fun l hl => h l (.rule hm hl)
    simp only [rewrite, PolicyNode.evaluate, policyBaseEvaluate]
    rw [hr, target_rewrite env hdr.target fun l hl => h l (.policyTarget hl)]
  | .policySet hdr ps, h => by
    simp only [rewrite, PolicyNode.evaluate, policyBaseEvaluate]
    rw [target_rewrite env hdr.target fun l hl => h l (.setTarget hl),
      policies_rewrite env ps fun p hp l hl => h l (.child hp hl)]
private theorem policies_rewrite (env : Env) {ctx : Ctx} {f : Reading → Reading} : (ps : List PolicyNode) →
    (∀ p ∈ ps, ∀ l, InPolicy l p → (f l).expr.evaluate env ctx = l.expr.evaluate env ctx) →
    PolicyNode.evaluators env ctx (rewriteAll f ps) = PolicyNode.evaluators env ctx ps
  | [], _ => rfl
  | p :: ps, h => by
    simp only [rewriteAll, PolicyNode.evaluators]
    rw [policy_rewrite env p (h p (by simp)), policies_rewrite env ps fun p hp => h p (by simp [hp])]
end

/-- **C90.** If designators and selectors of a policy are replaced by others that answer alike in a context, the policy
answers alike in it. -/
theorem C90_replace (env : Env) (p : PolicyNode) (f : Reading → Reading) (ctx : Ctx)
    (h : ∀ l, InPolicy l p → (f l).expr.evaluate env ctx = l.expr.evaluate env ctx) (w : World) :
    pdpEvaluate env (some (rewrite f p)) ctx w = pdpEvaluate env (some p) ctx w := by
  simp only [pdpEvaluate, PolicyNode.evaluateResponse]
  rw [policy_rewrite env p h]

/-- **C90.** A policy some designators of which are spelt out as paths of selectors gives the same response to a request
document as the policy with the designators. -/
theorem C90_policy (env : Env) (hcm : OwnNames env.classMap) (root : PElem) (hr : TagsOk root) (hc : InContext root)
    (ht : AllWithText root) (x : RequestX) (hx : IsRequest env.classMap root.node x) (pip : Option Pip) (p : PolicyNode)
    (which : Category → Designator → Bool)
    (hw : ∀ cat d, InPolicy (.designator cat d) p → which cat d = true → Spellable env.classMap root pip cat d) (w : World) :
    pdpEvaluate env (some (rewrite (byPath which) p)) (some (x.toRequest pip (some (selectText root)))) w =
      pdpEvaluate env (some p) (some (x.toRequest pip (some (selectText root)))) w := by
  refine C90_replace env p _ _ (fun l hl => ?_) w
  cases l with
  | selector s => rfl
  | designator cat d =>
    cases hwd : which cat d with
    | true =>
      have e : byPath which (.designator cat d) = byPath (fun _ _ => true) (.designator cat d) := by
        simp only [byPath, hwd]
      rw [e]
      funext w
      exact C90_same env hcm root hr hc ht x hx pip cat d (hw cat d hl hwd) w
    | false =>
      have e : byPath which (.designator cat d) = .designator cat d := by
        simp only [byPath, hwd]
        cases d.attributeId <;> cases d.dataType <;> rfl
      rw [e]

/-- **C90.** So does a service that answers the document: the answer is the same, and so is what the context handler is
asked. -/
theorem C90_answer (env : Env) (lib : Etree) (hg : lib.getchildren = true) (hcm : OwnNames env.classMap) (root : PElem)
    (hr : TagsOk root) (hc : InContext root) (ht : AllWithText root) (pip : Option Pip) (p : PolicyNode)
    (which : Category → Designator → Bool)
    (hw : ∀ cat d, InPolicy (.designator cat d) p → which cat d = true → Spellable env.classMap root pip cat d) (w : World) :
    answerElement env lib pip (some (rewrite (byPath which) p)) root w = answerElement env lib pip (some p) root w := by
  cases hx : readRequest lib env.classMap root.node with
  | error e =>
    unfold answerElement answerDocument
    rw [hx]
    rfl
  | ok x =>
    unfold answerElement
    rw [answer_ok hx, answer_ok hx, run_bind, run_bind]
    simp only [Option.map_some]
    rw [C90_policy env hcm root hr hc ht x ((C61_request lib hg ..).1 hx) pip p which hw]

/-- The classes of the package are registered under their own identifiers. -/
theorem ownNames_std : OwnNames stdClassMap := by
  intro dt c h
  have hm : ∀ l : List (String × String × NativeType), (l.map fun r => (r.2.1, stdClass r)).lookup dt = some c → c.identifier = dt := by
    intro l
    induction l with
    | nil => intro h; cases h
    | cons r l ih =>
      intro h
      rw [List.map_cons, List.lookup_cons] at h
      split at h
      · rename_i e
        cases h
        exact (eq_of_beq e).symm
      · exact ih h
  exact hm typeTable h

/-! ## Requests made by a program -/

mutual
theorem asTree_node : (n : XNode) → (t : PElem) → asTree n = some t → t.node = n
  | .other, t, h => by rw [asTree] at h; cases h
  | .elem tag attrib text children, t, h => by
    rw [asTree] at h
    cases h1 : asTrees children with
    | none => rw [h1] at h; cases h
    | some cs =>
      rw [h1] at h
      cases h
      rw [PElem.node, asTrees_nodes children cs h1]
      have e1 : (attrib.map fun a => (a.1.toList, a.2.toList)).map (fun a => (String.ofList a.1, String.ofList a.2)) = attrib := by
        rw [List.map_map]
        conv => rhs; rw [← List.map_id attrib]
        exact List.map_congr_left fun a _ => by simp
      have e2 : (text.map String.toList).map String.ofList = text := by cases text <;> simp
      rw [e1, e2]
      simp
theorem asTrees_nodes : (l : List XNode) → (ts : List PElem) → asTrees l = some ts → PElem.nodes ts = l
  | [], ts, h => by rw [asTrees] at h; cases h; rfl
  | n :: l, ts, h => by
    rw [asTrees] at h
    cases h1 : asTree n with
    | none => rw [h1] at h; cases h
    | some t =>
      cases h2 : asTrees l with
      | none => rw [h1, h2] at h; cases h
      | some ts' =>
        rw [h1, h2] at h
        cases h
        rw [PElem.nodes, asTree_node n t h1, asTrees_nodes l ts' h2]
end

private theorem requestTag_eq (k : String) : (contextTag k).toList = requestTag k := by
  have h1 : requestNs = contextNs.toList := by decide +kernel
  have h2 : "{".toList = ['{'] := by decide +kernel
  have h3 : "}".toList = ['}'] := by decide +kernel
  rw [contextTag, String.toList_append, String.toList_append, String.toList_append, requestTag, h1, h2, h3]
  simp only [List.append_assoc, List.cons_append, List.nil_append]

private theorem made {lib : Etree} {k uri : String} {as : List (String × String)} {x : Option String} {cs : List XNode} {t : PElem}
    (h : asTree (makeElement lib k uri as x cs) = some t) :
    t.tag = requestTag k ∧ t.text = x.map String.toList ∧ ∀ c ∈ t.children, ∃ n ∈ cs, asTree n = some c := by
  rw [makeElement, asTree] at h
  cases h1 : asTrees cs with
  | none => rw [h1] at h; cases h
  | some ts =>
    rw [h1] at h
    cases h
    refine ⟨requestTag_eq k, rfl, fun c hc => ?_⟩
    obtain ⟨n, hn, e⟩ := each_mem_right (asTrees_each _ _ h1) c hc
    exact ⟨n, hn, e⟩

/-- A written attribute: children are values, with text if the values have some. -/
private def WrittenAttribute (a : PElem) : Prop := a.tag = requestTag "Attribute" ∧
  ∀ v ∈ a.children, v.tag = requestTag "AttributeValue" ∧ v.children = [] ∧ v.text ≠ none

private theorem attribute_written {lib : Etree} {a : Attribute} {n : XNode} (h : writeAttribute lib a = .ok n) {t : PElem} (ht : asTree n = some t)
    (hv : ∀ v ∈ a.values, v.value ≠ none) : WrittenAttribute t := by
  unfold writeAttribute at h
  simp only [bind_ok_iff] at h
  obtain ⟨i, -, dt, -, vs, h3, h⟩ := h
  cases h
  obtain ⟨h1, -, h2⟩ := made ht
  refine ⟨h1, fun v hm => ?_⟩
  obtain ⟨m, hm, e⟩ := h2 v hm
  obtain ⟨av, hav, hw⟩ := each_mem_right (forEach_ok.1 h3) m hm
  simp only [bind_ok_iff] at hw
  obtain ⟨x, hx, hw⟩ := hw
  cases hw
  obtain ⟨k1, k2, k3⟩ := made e
  refine ⟨k1, ?_, ?_⟩
  · cases hc : v.children with
    | nil => rfl
    | cons c cs =>
      obtain ⟨n, hn, -⟩ := k3 c (by rw [hc]; simp)
      cases hn
  · rw [k2]
    unfold valueText at hx
    split at hx
    · rename_i h0; exact absurd h0 (hv av hav)
    · cases hx; simp
    · cases hx

/-- A written part. -/
private def WrittenPart (k : String) (c : PElem) : Prop := c.tag = requestTag k ∧ ∀ a ∈ c.children, WrittenAttribute a

private theorem part_written {lib : Etree} {k : String} {as : List Attribute} {ns : List XNode} (hns : forEach (writeAttribute lib) as = .ok ns)
    (hv : ∀ a ∈ as, ∀ v ∈ a.values, v.value ≠ none) {t : PElem} (ht : asTree (makeElement lib k contextNs [] none ns) = some t) :
    WrittenPart k t := by
  obtain ⟨h1, -, h2⟩ := made ht
  refine ⟨h1, fun a ha => ?_⟩
  obtain ⟨n, hn, e⟩ := h2 a ha
  obtain ⟨b, hb, hw⟩ := each_mem_right (forEach_ok.1 hns) n hn
  exact attribute_written hw e (hv b hb)

private theorem writtenPart_name {k : String} {c : PElem} (hk : PlainName k.toList) (h : WrittenPart k c) : c.node.name = k :=
  tag_name (by rw [h.1]; exact requestTag_ok hk) h.1

private theorem request_written {lib : Etree} {x : RequestX} {n : XNode} (h : writeRequest lib x = .ok n) (hc : NoContent x)
    (hv : ∀ cat attrs, attributesOf cat (x.toRequest none none).data = some attrs → ∀ a ∈ attrs, ∀ v ∈ a.values, v.value ≠ none)
    {t : PElem} (ht : asTree n = some t) : t.tag = requestTag "Request" ∧
      ∃ ss rs a e, t.children = ss ++ rs ++ [a, e] ∧ (∀ c ∈ ss, WrittenPart "Subject" c) ∧ (∀ c ∈ rs, WrittenPart "Resource" c) ∧
        WrittenPart "Action" a ∧ WrittenPart "Environment" e := by
  rw [writeRequest_ok] at h
  obtain ⟨ss, rs, a, e, h1, h2, h3, h4, rfl⟩ := h
  have hm := (made ht).1
  rw [makeElement, asTree] at ht
  have split : ∀ (l k : List XNode) ts, asTrees (l ++ k) = some ts → ∃ t1 t2, ts = t1 ++ t2 ∧ asTrees l = some t1 ∧ asTrees k = some t2 := by
    intro l
    induction l with
    | nil => intro k ts h; exact ⟨[], ts, rfl, rfl, h⟩
    | cons n l ih =>
      intro k ts h
      rw [List.cons_append, asTrees] at h
      cases g1 : asTree n with
      | none => rw [g1] at h; cases h
      | some t =>
        cases g2 : asTrees (l ++ k) with
        | none => rw [g1, g2] at h; cases h
        | some ts' =>
          rw [g1, g2] at h
          cases h
          obtain ⟨t1, t2, rfl, g3, g4⟩ := ih k ts' g2
          exact ⟨t :: t1, t2, rfl, by rw [asTrees, g1, g3]; rfl, g4⟩
  cases g : asTrees (ss ++ rs ++ [a, e]) with
  | none => rw [g] at ht; cases ht
  | some ts =>
    rw [g] at ht
    cases ht
    refine ⟨hm, ?_⟩
    obtain ⟨t1, t2, rfl, g1, g2⟩ := split _ _ _ g
    obtain ⟨t3, t4, rfl, g3, g4⟩ := split _ _ _ g1
    obtain ⟨ta, l, rfl, ha, hl⟩ := asTrees_each _ _ g2
    obtain ⟨te, l, rfl, he, hl⟩ := hl
    cases hl
    refine ⟨t3, t4, ta, te, rfl, fun c hc => ?_, fun c hc' => ?_, ?_, ?_⟩
    · obtain ⟨m, hm, em⟩ := each_mem_right (asTrees_each _ _ g3) c hc
      obtain ⟨s, hs, hw⟩ := each_mem_right (forEach_ok.1 h1) m hm
      obtain ⟨ns, k1, rfl⟩ := writeSubject_ok.1 hw
      exact part_written k1 (fun a ha => hv .subject _ rfl a (List.mem_flatMap.2 ⟨s, hs, ha⟩)) em
    · obtain ⟨m, hm, em⟩ := each_mem_right (asTrees_each _ _ g4) c hc'
      obtain ⟨s, hs, hw⟩ := each_mem_right (forEach_ok.1 h2) m hm
      obtain ⟨l, ns, k0, k1, rfl⟩ := writeResource_ok.1 hw
      rw [hc s hs] at k0
      simp only [ContentNodes] at k0
      subst k0
      exact part_written k1 (fun a ha => hv .resource _ rfl a
        (List.mem_flatMap.2 ⟨⟨s.attributes, none⟩, List.mem_map.2 ⟨s, hs, rfl⟩, ha⟩)) em
    · obtain ⟨as, ns, k0, k1, rfl⟩ := writePart_ok.1 h3
      exact part_written k1 (hv .action as k0) ha
    · obtain ⟨as, ns, k0, k1, rfl⟩ := writePart_ok.1 h4
      exact part_written k1 (hv .environment as k0) he

private theorem make_tree {lib : Etree} {k uri : String} {as : List (String × String)} {x : Option String} {cs : List XNode}
    (h : ∀ n ∈ cs, ∃ t, asTree n = some t) : ∃ t, asTree (makeElement lib k uri as x cs) = some t := by
  have : ∃ ts, asTrees cs = some ts := by
    induction cs with
    | nil => exact ⟨[], rfl⟩
    | cons n cs ih =>
      obtain ⟨t, ht⟩ := h n (by simp)
      obtain ⟨ts, hts⟩ := ih fun n hn => h n (by simp [hn])
      exact ⟨t :: ts, by rw [asTrees, ht, hts]; rfl⟩
  obtain ⟨ts, hts⟩ := this
  rw [makeElement, asTree, hts]
  exact ⟨_, rfl⟩

private theorem attributes_tree {lib : Etree} {as : List Attribute} {ns : List XNode} (h : forEach (writeAttribute lib) as = .ok ns) :
    ∀ n ∈ ns, ∃ t, asTree n = some t := by
  intro n hn
  obtain ⟨a, -, hw⟩ := each_mem_right (forEach_ok.1 h) n hn
  unfold writeAttribute at hw
  simp only [bind_ok_iff] at hw
  obtain ⟨i, -, dt, -, vs, h3, hw⟩ := hw
  cases hw
  refine make_tree fun m hm => ?_
  obtain ⟨av, -, hw⟩ := each_mem_right (forEach_ok.1 h3) m hm
  simp only [bind_ok_iff] at hw
  obtain ⟨x, -, hw⟩ := hw
  cases hw
  exact make_tree (by simp)

private theorem request_tree {lib : Etree} {x : RequestX} {n : XNode} (h : writeRequest lib x = .ok n) (hc : NoContent x) :
    ∃ t, asTree n = some t := by
  rw [writeRequest_ok] at h
  obtain ⟨ss, rs, a, e, h1, h2, h3, h4, rfl⟩ := h
  refine make_tree fun n hn => ?_
  simp only [List.mem_append, List.mem_cons, List.not_mem_nil, or_false] at hn
  rcases hn with (hn | hn) | rfl | rfl
  · obtain ⟨s, -, hw⟩ := each_mem_right (forEach_ok.1 h1) n hn
    obtain ⟨ns, k1, rfl⟩ := writeSubject_ok.1 hw
    exact make_tree (attributes_tree k1)
  · obtain ⟨s, hs, hw⟩ := each_mem_right (forEach_ok.1 h2) n hn
    obtain ⟨l, ns, k0, k1, rfl⟩ := writeResource_ok.1 hw
    rw [hc s hs] at k0
    simp only [ContentNodes] at k0
    subst k0
    exact make_tree (attributes_tree k1)
  · obtain ⟨as, ns, -, k1, rfl⟩ := writePart_ok.1 h3
    exact make_tree (attributes_tree k1)
  · obtain ⟨as, ns, -, k1, rfl⟩ := writePart_ok.1 h4
    exact make_tree (attributes_tree k1)

/-- **C90.** For a program that makes a request itself, writes it as an element and puts the selector on the element: a
policy some designators of which are spelt out as paths of selectors gives the same response as the policy with the
designators. All values are strings, attributes that are asked for have types with classes, and there is no context
handler if the subject is asked for. -/
theorem C90_written (env : Env) (lib : Etree) (hg : lib.getchildren = true) (hcm : OwnNames env.classMap) (x : RequestX)
    (hx : GoodRequest .tree env.classMap x) (hnc : NoContent x)
    (hv : ∀ cat attrs, attributesOf cat (x.toRequest none none).data = some attrs → ∀ a ∈ attrs, ∀ v ∈ a.values, v.value ≠ none)
    (pip : Option Pip) (p : PolicyNode) (which : Category → Designator → Bool)
    (hw : ∀ cat d, InPolicy (.designator cat d) p → which cat d = true →
      (∃ i dt, d.attributeId = some i ∧ d.dataType = some dt ∧ (env.classMap.lookup dt).isSome = true ∧ Quotable i ∧ Quotable dt ∧
        ∀ s, d.issuer = some s → Quotable s) ∧ (cat = .subject → pip = none)) :
    ∃ n t, writeRequest lib x = .ok n ∧ asTree n = some t ∧ ∀ w,
      decideWritten env pip (some (rewrite (byPath which) p)) x t w = decideWritten env pip (some p) x t w := by
  obtain ⟨n, h1, h2⟩ := (C51_partial .tree lib hg env.classMap x).2 hx
  have h2 : readRequest lib env.classMap n = .ok x := h2
  have hx' := (C61_request lib hg ..).1 h2
  obtain ⟨t, ht⟩ : ∃ t, asTree n = some t := request_tree h1 hnc
  refine ⟨n, t, h1, ht, fun w => ?_⟩
  obtain ⟨k0, ss, rs, a, e, k1, k2, k3, k4, k5⟩ := request_written h1 hnc hv ht
  have hparts : ∀ c ∈ t.children, ∃ cat, WrittenPart (partName cat) c := by
    intro c hc
    rw [k1] at hc
    simp only [List.mem_append, List.mem_cons, List.not_mem_nil, or_false] at hc
    rcases hc with (hc | hc) | rfl | rfl
    · exact ⟨.subject, k2 c hc⟩
    · exact ⟨.resource, k3 c hc⟩
    · exact ⟨.action, k4⟩
    · exact ⟨.environment, k5⟩
  have hA : PlainName "Attribute".toList := plain_word rfl (by decide +kernel)
  have hV : PlainName "AttributeValue".toList := plain_word rfl (by decide +kernel)
  have hR : PlainName "Request".toList := plain_word rfl (by decide +kernel)
  have htags : TagsOk t := by
    have step : ∀ e : PElem, TagName e.tag → (∀ c ∈ e.children, TagsOk c) → TagsOk e := by
      rintro ⟨t, as, x, y, cs⟩ h1 h2
      exact tagsOk_mk h1 h2
    refine step t (by rw [k0]; exact requestTag_ok hR) fun c hc => ?_
    obtain ⟨cat, h1, h2⟩ := hparts c hc
    refine step c (by rw [h1]; exact requestTag_ok (plain_part cat)) fun a ha => ?_
    obtain ⟨h1, h2⟩ := h2 a ha
    refine step a (by rw [h1]; exact requestTag_ok hA) fun v hv => ?_
    obtain ⟨h1, h2, -⟩ := h2 v hv
    exact step v (by rw [h1]; exact requestTag_ok hV) (by rw [h2]; simp)
  have hns : ∀ k, (splitTag (requestTag k)).1 = some requestNs := by
    intro k
    have hb : '}' ∉ requestNs := by decide +kernel
    rw [requestTag, xs_splitTag_brace hb]
  have get : ∀ (p : List Nat) (i : Nat) e, elemAt t (p ++ [i]) = some e → ∃ c, elemAt t p = some c := by
    intro p i e he
    rw [xs_elem_append] at he
    cases hc : elemAt t p with
    | none => rw [hc] at he; cases he
    | some c => exact ⟨c, rfl⟩
  have at1 : ∀ (i : Nat) c, elemAt t [i] = some c → ∃ cat, WrittenPart (partName cat) c := fun i c hc => hparts c (at_child (p := []) rfl hc)
  have at2 : ∀ (i j : Nat) a, elemAt t [i, j] = some a → WrittenAttribute a := fun i j a ha => by
    obtain ⟨c, hc⟩ := get [i] j a ha
    obtain ⟨cat, h⟩ := at1 i c hc
    exact h.2 a (at_child hc ha)
  have at3 : ∀ (i j k : Nat) v, elemAt t [i, j, k] = some v → v.tag = requestTag "AttributeValue" ∧ v.children = [] ∧ v.text ≠ none :=
    fun i j k v hv => by
      obtain ⟨a, ha⟩ := get [i, j] k v hv
      exact (at2 i j a ha).2 v (at_child (p := [i, j]) ha hv)
  have hctx : InContext t := by
    refine ⟨fun i u as x y cs hi => ?_, fun i j u as x y cs hi _ => ?_, fun i j k u as x y cs u' as' x' y' cs' _ _ hi => ?_⟩
    · obtain ⟨cat, h⟩ := at1 i _ hi
      have h := h.1
      simp only [PElem.tag] at h
      rw [h, hns]
    · have h := (at2 i j _ hi).1
      simp only [PElem.tag] at h
      rw [h, hns]
    · have h := (at3 i j k _ hi).1
      simp only [PElem.tag] at h
      rw [h, hns]
  have htext : AllWithText t := fun i j k u as y cs hi _ => (at3 i j k _ hi).2.2 rfl
  have hone : ∀ cat, cat = .action ∨ cat = .environment → (childrenNamed t.node (partName cat)).length = 1 := by
    intro cat hcat
    have e1 : ∀ {k k' : String} {l : List PElem}, PlainName k.toList → k ≠ k' → (∀ c ∈ l, WrittenPart k c) →
        (l.map PElem.node).filter (fun c => decide (c.name = k')) = [] := by
      intro k k' l hp hk hl
      rw [List.filter_eq_nil_iff]
      intro c hc
      obtain ⟨c', hc', rfl⟩ := List.mem_map.1 hc
      rw [writtenPart_name hp (hl c' hc')]
      simpa using hk
    rw [childrenNamed, elems_node, k1, List.map_append, List.map_append, List.filter_append, List.filter_append,
      e1 (plain_part .subject) (by rcases hcat with rfl | rfl <;> decide) k2,
      e1 (plain_part .resource) (by rcases hcat with rfl | rfl <;> decide) k3]
    simp only [List.map_cons, List.map_nil, List.filter_cons, writtenPart_name (plain_part .action) k4,
      writtenPart_name (plain_part .environment) k5]
    rcases hcat with rfl | rfl <;> rfl
  have hnode : t.node = n := asTree_node n t ht
  rw [← hnode] at hx'
  unfold decideWritten
  refine C90_policy env hcm t htags hctx htext x hx' pip p which (fun cat d hin hwd => ?_) w
  obtain ⟨⟨i, dt, q1, q2, q3, q4, q5, q6⟩, q7⟩ := hw cat d hin hwd
  exact ⟨i, dt, q1, q2, q3, q4, q5, q6, hone cat, q7⟩

namespace Samples
/-- An attribute of type string with one value. -/
def attrElem (tag : Chars) (i : String) (value : Option String) : PElem :=
  .mk tag [("AttributeId".toList, i.toList), ("DataType".toList, (xsd "string").toList)] none none
    [.mk (requestTag "AttributeValue") [] (value.map String.toList) none []]

/-- A part of a request. -/
def partElem (name : String) (attrs : List PElem) : PElem := .mk (requestTag name) [] none none attrs

/-- A request document. -/
def requestElem (parts : List PElem) : PElem := .mk (requestTag "Request") [] none none parts

/-- A target with a designator that must find `x`. -/
def askTarget (cat : Category) (i : String) : Target where
  subjects := [{ matches_ := [{
    value := some (str "x")
    designator := some (cat, { attributeId := some i, dataType := some (xsd "string"), issuer := none, mustBePresent := false })
    selector := none
    func := some (.equal stringClass) }] }]
  resources := []
  actions := []
  environments := []

/-- Denies if a designator finds `x`; permits otherwise. -/
def askPolicy (cat : Category) (i : String) : PolicyNode :=
  .policy (hdr .firstApplicable)
    [{ effect := some .deny, condition := none,
       target := some (askTarget cat i) },
     always .permit]

/-- Two subjects, one of which has the role `x`. -/
def roleElem : PElem := requestElem [
  partElem "Subject" [attrElem (requestTag "Attribute") "role" (some "y"), attrElem (requestTag "Attribute") "name" (some "x")],
  partElem "Subject" [attrElem (requestTag "Attribute") "role" (some "x")],
  partElem "Action" [], partElem "Environment" []]
end Samples

open Samples

private def nsB (e : PElem) : Bool := (splitTag e.tag).1 == some requestNs

private def contextB (root : PElem) : Bool := root.children.all fun c => nsB c && c.children.all fun a =>
  (splitTag a.tag).2 != "Attribute".toList || (nsB a && a.children.all nsB)

private theorem inContext_of {root : PElem} (h : contextB root = true) : InContext root := by
  unfold contextB at h
  rw [List.all_eq_true] at h
  have h1 : ∀ (i : Nat) e, elemAt root [i] = some e → e ∈ root.children := fun i e he => at_child (p := []) rfl he
  have get : ∀ (p : List Nat) (i : Nat) e, elemAt root (p ++ [i]) = some e → ∃ c, elemAt root p = some c := by
    intro p i e he
    rw [xs_elem_append] at he
    cases hc : elemAt root p with
    | none => rw [hc] at he; cases he
    | some c => exact ⟨c, rfl⟩
  constructor
  · intro i t as x y cs he
    have := h _ (h1 i _ he)
    rw [Bool.and_eq_true] at this
    exact eq_of_beq this.1
  · intro i j t as x y cs he hn
    obtain ⟨c, hc⟩ := get [i] j _ he
    have := h _ (h1 i _ hc)
    rw [Bool.and_eq_true, List.all_eq_true] at this
    have := this.2 _ (at_child hc he)
    rw [Bool.or_eq_true, bne_iff_ne, Bool.and_eq_true] at this
    rcases this with h | h
    · exact absurd hn h
    · exact eq_of_beq h.1
  · intro i j k t as x y cs t' as' x' y' cs' he hn hv
    obtain ⟨c, hc⟩ := get [i] j _ he
    have := h _ (h1 i _ hc)
    rw [Bool.and_eq_true, List.all_eq_true] at this
    have := this.2 _ (at_child hc he)
    rw [Bool.or_eq_true, bne_iff_ne, Bool.and_eq_true, List.all_eq_true] at this
    rcases this with h | h
    · exact absurd hn h
    · exact eq_of_beq (h.2 _ (at_child (p := [i, j]) he hv))

private theorem allWithText_of {root : PElem} (h : (root.children.all fun c => c.children.all fun a => a.children.all fun v =>
    v.text.isSome) = true) : AllWithText root := by
  have get : ∀ (p : List Nat) (i : Nat) e, elemAt root (p ++ [i]) = some e → ∃ c, elemAt root p = some c := by
    intro p i e he
    rw [xs_elem_append] at he
    cases hc : elemAt root p with
    | none => rw [hc] at he; cases he
    | some c => exact ⟨c, rfl⟩
  intro i j k t as y cs hv
  obtain ⟨a, ha⟩ := get [i, j] k _ hv
  obtain ⟨c, hc⟩ := get [i] j _ ha
  simp only [List.all_eq_true] at h
  cases h c (at_child (p := []) rfl hc) a (at_child hc ha) _ (at_child (p := [i, j]) ha hv)

private theorem attrElem_tags {tag : Chars} (ht : TagName tag) (i : String) (v : Option String) : TagsOk (attrElem tag i v) :=
  tagsOk_mk ht fun c hc => by
    rw [List.mem_singleton.1 hc]
    exact tagsOk_mk (requestTag_ok (plain_word rfl (by decide +kernel))) (by simp)

private theorem attribute_tag : TagName (requestTag "Attribute") := requestTag_ok (plain_word rfl (by decide +kernel))

private theorem partElem_tags (cat : Category) {l : List PElem} (h : ∀ e ∈ l, TagsOk e) : TagsOk (partElem (partName cat) l) :=
  tagsOk_mk (requestTag_ok (plain_part cat)) h

private theorem requestElem_tags {l : List PElem} (h : ∀ e ∈ l, TagsOk e) : TagsOk (requestElem l) :=
  tagsOk_mk (requestTag_ok (plain_word rfl (by decide +kernel))) h

private theorem askPolicy_in {cat cat' : Category} {i : String} {d : Designator} (h : InPolicy (.designator cat' d) (askPolicy cat i)) :
    cat' = cat ∧ d = { attributeId := some i, dataType := some (xsd "string"), issuer := none, mustBePresent := false } := by
  have ht : ∀ {t}, InTarget (.designator cat' d) t →
      t = some (askTarget cat i) →
      cat' = cat ∧ d = { attributeId := some i, dataType := some (xsd "string"), issuer := none, mustBePresent := false } := by
    rintro t ⟨t', rfl, c, hc, m, hm, h⟩ e
    cases e
    simp only [askTarget, List.append_nil, List.mem_singleton] at hc
    subst hc
    rw [List.mem_singleton.1 hm] at h
    rcases h with ⟨cat'', d', hd, e⟩ | ⟨s, hs, e⟩
    · cases hd; cases e; exact ⟨rfl, rfl⟩
    · cases hs
  cases h with
  | policyTarget h => obtain ⟨t', ht, -⟩ := h; cases ht
  | rule hr h =>
    simp only [List.mem_cons, List.not_mem_nil, or_false] at hr
    rcases hr with rfl | rfl
    · rcases h with h | ⟨c, e, hc, -⟩
      · exact ht h rfl
      · cases hc
    · rcases h with ⟨t', ht, -⟩ | ⟨c, e, hc, -⟩
      · cases ht
      · cases hc

private theorem askPolicy_spellable {cat : Category} {i : String} (hi : Quotable i) {root : PElem}
    (h : cat = .action ∨ cat = .environment → (childrenNamed root.node (partName cat)).length = 1) (cat' : Category) (d : Designator)
    (hin : InPolicy (.designator cat' d) (askPolicy cat i)) : Spellable stdClassMap root none cat' d := by
  obtain ⟨rfl, rfl⟩ := askPolicy_in hin
  exact ⟨i, xsd "string", rfl, rfl, by decide +kernel, hi, by unfold Quotable; decide +kernel, by simp, h, fun _ => rfl⟩

/-- `C90_answer`: a policy that asks for roles, and a document with two subjects. -/
example : TagsOk roleElem ∧ InContext roleElem ∧ AllWithText roleElem ∧ (∃ x, IsRequest env.classMap roleElem.node x) ∧
    OwnNames env.classMap ∧
    (∀ cat d, InPolicy (.designator cat d) (askPolicy .subject "role") → Spellable env.classMap roleElem none cat d) ∧
    pathText (attributePath .subject "role" (xsd "string") none) =
      "/{urn:oasis:names:tc:xacml:2.0:context:schema:os}Subject/{urn:oasis:names:tc:xacml:2.0:context:schema:os}Attribute" ++
      "[@AttributeId='role'][@DataType='http://www.w3.org/2001/XMLSchema#string']" ++
      "/{urn:oasis:names:tc:xacml:2.0:context:schema:os}AttributeValue" ∧
    decisionsOn (askPolicy .subject "role") roleElem = some [some .deny] ∧
    decisionsOn (rewrite (byPath fun _ _ => true) (askPolicy .subject "role")) roleElem = some [some .deny] ∧
    decisionsOn (rewrite (byPath fun _ _ => true) (askPolicy .subject "colour")) roleElem = some [some .permit] := by
  have ha : ∀ i v, TagsOk (attrElem (requestTag "Attribute") i v) := attrElem_tags attribute_tag
  refine ⟨?_, inContext_of (by decide +kernel), allWithText_of (by decide +kernel), ?_, ownNames_std,
    askPolicy_spellable (by unfold Quotable; decide +kernel) (by rintro (h | h) <;> cases h),
    by decide +kernel, by decide +kernel, by decide +kernel, by decide +kernel⟩
  · refine requestElem_tags fun e he => ?_
    simp only [List.mem_cons, List.not_mem_nil, or_false] at he
    rcases he with rfl | rfl | rfl | rfl
    · refine partElem_tags .subject fun e he => ?_
      simp only [List.mem_cons, List.not_mem_nil, or_false] at he
      rcases he with rfl | rfl
      · exact ha _ _
      · exact ha _ _
    · refine partElem_tags .subject fun e he => ?_
      rw [List.mem_singleton.1 he]
      exact ha _ _
    · exact partElem_tags .action (by simp)
    · exact partElem_tags .environment (by simp)
  · cases hx : readRequest plainEtree env.classMap roleElem.node with
    | ok x => exact ⟨x, (C61_request plainEtree rfl ..).1 hx⟩
    | error e =>
      have : (match readRequest plainEtree env.classMap roleElem.node with | .ok _ => true | .error _ => false) = true := by
        decide +kernel
      rw [hx] at this
      cases this

/-- **C90, violated.** The reader of requests takes an `Attribute` of any namespace for an attribute: what a designator
denies is permitted with the path, which names the namespace. -/
theorem C90_violated_namespace : ∃ p root, TagsOk root ∧ AllWithText root ∧
    (∀ cat d, InPolicy (.designator cat d) p → Spellable env.classMap root none cat d) ∧
    decisionsOn p root = some [some .deny] ∧ decisionsOn (rewrite (byPath fun _ _ => true) p) root = some [some .permit] := by
  refine ⟨askPolicy .subject "role", requestElem [partElem "Subject" [attrElem "Attribute".toList "role" (some "x")],
    partElem "Action" [], partElem "Environment" []], ?_, allWithText_of (by decide +kernel),
    askPolicy_spellable (by unfold Quotable; decide +kernel) (by rintro (h | h) <;> cases h), by decide +kernel, by decide +kernel⟩
  refine requestElem_tags fun e he => ?_
  simp only [List.mem_cons, List.not_mem_nil, or_false] at he
  rcases he with rfl | rfl | rfl
  · refine partElem_tags .subject fun e he => ?_
    rw [List.mem_singleton.1 he]
    exact attrElem_tags (.inl (plain_word rfl (by decide +kernel))) _ _
  · exact partElem_tags .action (by simp)
  · exact partElem_tags .environment (by simp)

/-- **C90, violated.** Of two actions a designator sees the last one only, and a path sees both: what the designator
permits is denied with the path. -/
theorem C90_violated_two_actions : ∃ p root, TagsOk root ∧ InContext root ∧ AllWithText root ∧
    decisionsOn p root = some [some .permit] ∧ decisionsOn (rewrite (byPath fun _ _ => true) p) root = some [some .deny] := by
  refine ⟨askPolicy .action "id", requestElem [partElem "Action" [attrElem (requestTag "Attribute") "id" (some "x")],
    partElem "Action" [attrElem (requestTag "Attribute") "id" (some "y")], partElem "Environment" []], ?_,
    inContext_of (by decide +kernel), allWithText_of (by decide +kernel), by decide +kernel, by decide +kernel⟩
  refine requestElem_tags fun e he => ?_
  simp only [List.mem_cons, List.not_mem_nil, or_false] at he
  rcases he with rfl | rfl | rfl
  · refine partElem_tags .action fun e he => ?_
    rw [List.mem_singleton.1 he]
    exact attrElem_tags attribute_tag _ _
  · refine partElem_tags .action fun e he => ?_
    rw [List.mem_singleton.1 he]
    exact attrElem_tags attribute_tag _ _
  · exact partElem_tags .environment (by simp)

/-- **C90, violated.** Without an action in the request a designator of the action fails, and the path selects
nothing. -/
theorem C90_violated_no_action : ∃ p root, TagsOk root ∧ InContext root ∧ AllWithText root ∧
    decisionsOn p root = some [some .indeterminate] ∧ decisionsOn (rewrite (byPath fun _ _ => true) p) root = some [some .permit] := by
  refine ⟨askPolicy .action "id", requestElem [partElem "Environment" []], ?_,
    inContext_of (by decide +kernel), allWithText_of (by decide +kernel), by decide +kernel, by decide +kernel⟩
  refine requestElem_tags fun e he => ?_
  rw [List.mem_singleton.1 he]
  exact partElem_tags .environment (by simp)

/-- **C90, violated.** An attribute value without text is a value for a designator, and an error for a selector. -/
theorem C90_violated_empty : ∃ p root, TagsOk root ∧ InContext root ∧
    (∀ cat d, InPolicy (.designator cat d) p → Spellable env.classMap root none cat d) ∧
    decisionsOn p root = some [some .permit] ∧ decisionsOn (rewrite (byPath fun _ _ => true) p) root = some [some .indeterminate] := by
  refine ⟨askPolicy .subject "role", requestElem [partElem "Subject" [attrElem (requestTag "Attribute") "role" none],
    partElem "Action" [], partElem "Environment" []], ?_, inContext_of (by decide +kernel),
    askPolicy_spellable (by unfold Quotable; decide +kernel) (by rintro (h | h) <;> cases h), by decide +kernel, by decide +kernel⟩
  refine requestElem_tags fun e he => ?_
  simp only [List.mem_cons, List.not_mem_nil, or_false] at he
  rcases he with rfl | rfl | rfl
  · refine partElem_tags .subject fun e he => ?_
    rw [List.mem_singleton.1 he]
    exact attrElem_tags attribute_tag _ _
  · exact partElem_tags .action (by simp)
  · exact partElem_tags .environment (by simp)

/-- `C90_written`: a request with two attributes. -/
example : let x := sentBy [oneAttr "id" "joe", oneAttr "role" "x"]
    GoodRequest .tree env.classMap x ∧ NoContent x ∧
    (∀ cat attrs, attributesOf cat (x.toRequest none none).data = some attrs → ∀ a ∈ attrs, ∀ v ∈ a.values, v.value ≠ none) := by
  refine ⟨sentBy_good [("id", "joe"), ("role", "x")], sentBy_noContent _, ?_⟩
  intro cat attrs h a ha v hv
  cases cat with
  | subject =>
    cases h
    simp [RequestX.toRequest, sentBy, oneAttr] at ha
    rcases ha with rfl | rfl
    · simp [oneAttr] at hv; subst hv; simp
    · simp [oneAttr] at hv; subst hv; simp
  | resource => cases h; simp [RequestX.toRequest, sentBy] at ha
  | action => cases h; cases ha
  | environment => cases h; cases ha

end Xacml
