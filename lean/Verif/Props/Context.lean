import Verif.Lemmas.Readers
import Verif.Spec.Context
import Verif.Spec.Samples

/-!
# C51, C52, C61: request and response contexts
-/
namespace Xacml
open Spec

/-! ## Lists -/

theorem forEach_ok {α β} {f : α → Except Exc β} {l : List α} {bs : List β} :
    forEach f l = .ok bs ↔ Each (fun a b => f a = .ok b) l bs := by
  induction l generalizing bs with
  | nil => rw [forEach, each_nil]; simp [eq_comm]
  | cons a l ih =>
    rw [forEach, each_cons]
    simp only [bind_ok_iff, ih]
    constructor
    · rintro ⟨b, h1, bs', h2, h3⟩; cases h3; exact ⟨b, bs', rfl, h1, h2⟩
    · rintro ⟨b, bs', rfl, h1, h2⟩; exact ⟨b, h1, bs', h2, rfl⟩

/-! ## C61: what is read -/

private theorem readAttributeChild_ok {cm : List (String × AVClass)} {dt : String} {n : XNode} {v : AttrVal} :
    readAttributeChild (cm.lookup dt) n = .ok v ↔ IsCtxValue cm dt n v := by
  unfold readAttributeChild IsCtxValue
  by_cases hn : n.name = "AttributeValue"
  · rw [if_pos hn]
    unfold makeValue
    cases cm.lookup dt with
    | none => simp
    | some c =>
      cases n.text with
      | none =>
        constructor
        · intro h; cases h; exact ⟨hn, c, rfl, rfl, rfl, .inl ⟨rfl, rfl⟩⟩
        · rintro ⟨_, _, h1, h2, h3, ⟨_, h4⟩ | ⟨t, h, _⟩⟩
          · cases h1; cases v; simp only at h2 h3 h4; subst h2 h3 h4; rfl
          · cases h
      | some t =>
        have hv : c.newWith (.str t) = .ok v ↔
            c.native = .str ∧ v = { cls := c, dataType := c.identifier, value := some (.str t) } := by
          have he : c.newWith (.str t) = if (Native.str t).isInstance c.new.cls.native then
              .ok { cls := c, dataType := c.identifier, value := some (.str t) } else .error .typeError := rfl
          rw [he]
          by_cases hi : (Native.str t).isInstance c.new.cls.native = true
          · rw [if_pos hi]
            have : c.native = .str := by
              change (Native.str t).isInstance c.native = true at hi
              cases hc : c.native <;> rw [hc] at hi <;> simp [Native.isInstance] at hi
            constructor
            · intro h; cases h; exact ⟨this, rfl⟩
            · rintro ⟨_, rfl⟩; rfl
          · rw [if_neg hi]
            constructor
            · intro h; cases h
            · rintro ⟨h, _⟩
              exact absurd (show (Native.str t).isInstance c.native = true by rw [h]; rfl) hi
        refine Iff.trans hv ?_
        constructor
        · rintro ⟨h1, rfl⟩; exact ⟨hn, c, rfl, rfl, rfl, .inr ⟨t, rfl, h1, rfl⟩⟩
        · rintro ⟨_, _, h1, h2, h3, ⟨h, _⟩ | ⟨t', h4, h5, h6⟩⟩
          · cases h
          · cases h1; cases h4; refine ⟨h5, ?_⟩
            cases v; simp only at h2 h3 h6; subst h2 h3 h6; rfl
  · rw [if_neg hn]; simp [hn]

private theorem stringSetting_ok {o : Option String} {s : String} : stringSetting o = .ok s ↔ o = some s := by
  cases o <;> simp [stringSetting]

private theorem readAttribute_ok {lib : Etree} (hl : lib.getchildren = true) {cm : List (String × AVClass)} {n : XNode}
    {a : Attribute} : readAttribute lib cm n = .ok a ↔ IsAttribute cm n a := by
  unfold readAttribute IsAttribute
  by_cases hc : n.children = []
  · simp only [hc, List.isEmpty_nil, if_true, bind_ok_iff]
    constructor
    · rintro ⟨_, _, _, _, _, _, h⟩
      rw [hl] at h
      cases h
    · rintro ⟨_, h, _⟩; exact absurd rfl h
  have hc' : n.children.isEmpty = false := by cases h : n.children <;> simp_all
  simp only [bind_ok_iff, expectName_ok, stringSetting_ok, hl, hc', Bool.not_true, Bool.false_eq_true, if_false,
    forEach_ok, readAttributeChild_ok]
  constructor
  · rintro ⟨_, h1, i, h2, dt, h3, h4⟩
    obtain ⟨vs, h5, h6⟩ := h4
    cases h6
    exact ⟨h1, hc, i, dt, h2, rfl, h3, rfl, rfl, h5⟩
  · rintro ⟨h1, h4, i, dt, h2, h2', h3, h3', h5, h6⟩
    refine ⟨(), h1, i, h2, dt, h3, ?_⟩
    refine ⟨a.values, h6, ?_⟩
    · cases a; simp only at h2' h3' h5; subst h2' h3' h5; rfl

private theorem readAttributes_ok {lib : Etree} (hl : lib.getchildren = true) {cm : List (String × AVClass)} {n : XNode}
    {l : List Attribute} : readAttributes lib cm n = .ok l ↔ HasAttributes cm n l := by
  unfold readAttributes HasAttributes
  simp only [forEach_ok, readAttribute_ok hl]
  exact Iff.rfl

private theorem readSubject_ok {lib : Etree} (hl : lib.getchildren = true) {cm : List (String × AVClass)} {n : XNode}
    {s : CtxSubject} : readSubject lib cm n = .ok s ↔ IsSubject cm n s := by
  unfold readSubject IsSubject
  simp only [bind_ok_iff, expectName_ok, readAttributes_ok hl]
  constructor
  · rintro ⟨_, h1, l, h2, h3⟩
    cases h3
    refine ⟨h1, h2, ?_⟩
    cases n.attr "SubjectCategory" with
    | none => exact .inr ⟨rfl, rfl⟩
    | some c => exact .inl ⟨c, rfl, rfl⟩
  · rintro ⟨h1, h2, h3⟩
    refine ⟨(), h1, _, h2, ?_⟩
    obtain ⟨cat, as⟩ := s
    rcases h3 with ⟨c, h4, h5⟩ | ⟨h4, h5⟩
    · rw [h4]; simp only at h5; subst h5; rfl
    · rw [h4]; simp only at h5; subst h5; rfl

private theorem readPart_ok {lib : Etree} (hl : lib.getchildren = true) {cm : List (String × AVClass)} {name : String}
    {n : XNode} {l : List Attribute} : readPart lib cm name n = .ok l ↔ IsPart cm name n l := by
  unfold readPart IsPart
  simp only [bind_ok_iff, expectName_ok, readAttributes_ok hl]
  exact ⟨fun ⟨_, h1, h2⟩ => ⟨h1, h2⟩, fun ⟨h1, h2⟩ => ⟨(), h1, h2⟩⟩

private theorem readResourceChildren_ok {lib : Etree} (hl : lib.getchildren = true) {cm : List (String × AVClass)}
    {l : List XNode} {r r' : ResourceX} : readResourceChildren lib cm r l = .ok r' ↔
      ∃ as, Each (IsAttribute cm) (l.filter fun c => decide (c.name = "Attribute")) as ∧
        r' = { attributes := r.attributes ++ as,
               content := lastOr ((l.filter fun c => decide (c.name = "ResourceContent")).map .node) r.content } := by
  induction l generalizing r with
  | nil =>
    rw [readResourceChildren]
    simp only [List.filter_nil, each_nil, List.map_nil, lastOr_nil]
    constructor
    · intro h; cases h; exact ⟨[], rfl, by simp⟩
    · rintro ⟨_, rfl, rfl⟩; simp
  | cons c l ih =>
    rw [readResourceChildren]
    by_cases h1 : c.name = "Attribute"
    · have h2 : c.name ≠ "ResourceContent" := by rw [h1]; decide
      simp only [h1, if_true, bind_ok_iff, readAttribute_ok hl, ih, List.filter_cons, decide_true, each_cons]
      have h2 : decide ("Attribute" = "ResourceContent") = false := by decide
      rw [h2]
      simp only [Bool.false_eq_true, if_false]
      constructor
      · rintro ⟨a, ha, as, h3, rfl⟩; exact ⟨a :: as, ⟨a, as, rfl, ha, h3⟩, by simp⟩
      · rintro ⟨_, ⟨a, as, rfl, ha, h3⟩, rfl⟩; exact ⟨a, ha, as, h3, by simp⟩
    · rw [if_neg h1]
      by_cases h2 : c.name = "ResourceContent"
      · rw [if_pos h2, ih]
        simp [List.filter_cons, h2, lastOr_cons]
      · rw [if_neg h2, ih]
        simp [List.filter_cons, h1, h2]

private theorem readResource_ok {lib : Etree} (hl : lib.getchildren = true) {cm : List (String × AVClass)} {n : XNode}
    {r : ResourceX} : readResource lib cm n = .ok r ↔ IsResource cm n r := by
  unfold readResource IsResource HasAttributes
  simp only [bind_ok_iff, expectName_ok, readResourceChildren_ok hl]
  have hlast : lastOr ((childrenNamed n "ResourceContent").map Content.node) none =
      (childrenNamed n "ResourceContent").getLast?.map .node := by rw [lastOr_none, List.getLast?_map]
  constructor
  · rintro ⟨_, h1, as, h2, rfl⟩
    exact ⟨h1, h2, hlast⟩
  · rintro ⟨h1, h2, h3⟩
    refine ⟨(), h1, r.attributes, h2, ?_⟩
    cases r
    simp only at h3 ⊢
    subst h3
    rw [List.nil_append]
    exact congrArg _ hlast.symm

private theorem readRequestChildren_ok {lib : Etree} (hl : lib.getchildren = true) {cm : List (String × AVClass)}
    {l : List XNode} {r r' : RequestX} : readRequestChildren lib cm r l = .ok r' ↔
      (∀ c ∈ l, c.name ∈ ["Subject", "Resource", "Action", "Environment"]) ∧
      ∃ ss rs as es, Each (IsSubject cm) (l.filter fun c => decide (c.name = "Subject")) ss ∧
        Each (IsResource cm) (l.filter fun c => decide (c.name = "Resource")) rs ∧
        Each (IsPart cm "Action") (l.filter fun c => decide (c.name = "Action")) as ∧
        Each (IsPart cm "Environment") (l.filter fun c => decide (c.name = "Environment")) es ∧
        r' = { subjects := r.subjects ++ ss, resources := r.resources ++ rs, action := lastOr as r.action,
               environment := lastOr es r.environment } := by
  induction l generalizing r with
  | nil =>
    rw [readRequestChildren]
    simp only [List.filter_nil, each_nil]
    constructor
    · intro h; cases h; exact ⟨by simp, [], [], [], [], rfl, rfl, rfl, rfl, by simp [lastOr_nil]⟩
    · rintro ⟨_, _, _, _, _, rfl, rfl, rfl, rfl, rfl⟩; simp [lastOr_nil]
  | cons c l ih =>
    rw [readRequestChildren, List.forall_mem_cons]
    by_cases h1 : c.name = "Subject"
    · simp only [h1, if_true, bind_ok_iff, readSubject_ok hl, ih, List.filter_cons]
      simp only [decide_true, if_true, each_cons, show decide ("Subject" = "Resource") = false by decide,
        show decide ("Subject" = "Action") = false by decide, show decide ("Subject" = "Environment") = false by decide,
        Bool.false_eq_true, if_false]
      constructor
      · rintro ⟨a, ha, hk, ss, rs, as, es, e1, e2, e3, e4, rfl⟩
        exact ⟨⟨by simp, hk⟩, a :: ss, rs, as, es, ⟨a, ss, rfl, ha, e1⟩, e2, e3, e4, by simp⟩
      · rintro ⟨⟨_, hk⟩, _, rs, as, es, ⟨a, ss, rfl, ha, e1⟩, e2, e3, e4, rfl⟩
        exact ⟨a, ha, hk, ss, rs, as, es, e1, e2, e3, e4, by simp⟩
    rw [if_neg h1]
    by_cases h2 : c.name = "Resource"
    · simp only [h2, if_true, bind_ok_iff, readResource_ok hl, ih, List.filter_cons]
      simp only [decide_true, if_true, each_cons, show decide ("Resource" = "Subject") = false by decide,
        show decide ("Resource" = "Action") = false by decide, show decide ("Resource" = "Environment") = false by decide,
        Bool.false_eq_true, if_false]
      constructor
      · rintro ⟨a, ha, hk, ss, rs, as, es, e1, e2, e3, e4, rfl⟩
        exact ⟨⟨by simp, hk⟩, ss, a :: rs, as, es, e1, ⟨a, rs, rfl, ha, e2⟩, e3, e4, by simp⟩
      · rintro ⟨⟨_, hk⟩, ss, _, as, es, e1, ⟨a, rs, rfl, ha, e2⟩, e3, e4, rfl⟩
        exact ⟨a, ha, hk, ss, rs, as, es, e1, e2, e3, e4, by simp⟩
    rw [if_neg h2]
    by_cases h3 : c.name = "Action"
    · simp only [h3, if_true, bind_ok_iff, readPart_ok hl, ih, List.filter_cons]
      simp only [decide_true, if_true, each_cons, show decide ("Action" = "Subject") = false by decide,
        show decide ("Action" = "Resource") = false by decide, show decide ("Action" = "Environment") = false by decide,
        Bool.false_eq_true, if_false]
      constructor
      · rintro ⟨a, ha, hk, ss, rs, as, es, e1, e2, e3, e4, rfl⟩
        exact ⟨⟨by simp, hk⟩, ss, rs, a :: as, es, e1, e2, ⟨a, as, rfl, ha, e3⟩, e4, by simp [lastOr_cons]⟩
      · rintro ⟨⟨_, hk⟩, ss, rs, _, es, e1, e2, ⟨a, as, rfl, ha, e3⟩, e4, rfl⟩
        exact ⟨a, ha, hk, ss, rs, as, es, e1, e2, e3, e4, by simp [lastOr_cons]⟩
    rw [if_neg h3]
    by_cases h4 : c.name = "Environment"
    · simp only [h4, if_true, bind_ok_iff, readPart_ok hl, ih, List.filter_cons]
      simp only [decide_true, if_true, each_cons, show decide ("Environment" = "Subject") = false by decide,
        show decide ("Environment" = "Resource") = false by decide, show decide ("Environment" = "Action") = false by decide,
        Bool.false_eq_true, if_false]
      constructor
      · rintro ⟨a, ha, hk, ss, rs, as, es, e1, e2, e3, e4, rfl⟩
        exact ⟨⟨by simp, hk⟩, ss, rs, as, a :: es, e1, e2, e3, ⟨a, es, rfl, ha, e4⟩, by simp [lastOr_cons]⟩
      · rintro ⟨⟨_, hk⟩, ss, rs, as, _, e1, e2, e3, ⟨a, es, rfl, ha, e4⟩, rfl⟩
        exact ⟨a, ha, hk, ss, rs, as, es, e1, e2, e3, e4, by simp [lastOr_cons]⟩
    · rw [if_neg h4]
      simp [h1, h2, h3, h4]

/-- **C61.** Reading a request succeeds exactly on the elements that the grammar describes, with the data
it says, if the ElementTree implementation has `getchildren`. -/
theorem C61_request (lib : Etree) (hl : lib.getchildren = true) (cm : List (String × AVClass)) (n : XNode)
    (r : RequestX) : readRequest lib cm n = .ok r ↔ IsRequest cm n r := by
  unfold readRequest IsRequest LastOf
  simp only [bind_ok_iff, expectName_ok, readRequestChildren_ok hl]
  constructor
  · rintro ⟨_, h1, hk, ss, rs, as, es, e1, e2, e3, e4, rfl⟩
    exact ⟨h1, hk, e1, e2, ⟨as, e3, lastOr_none _⟩, ⟨es, e4, lastOr_none _⟩⟩
  · rintro ⟨h1, hk, e1, e2, ⟨as, e3, h3⟩, ⟨es, e4, h4⟩⟩
    refine ⟨(), h1, hk, _, _, as, es, e1, e2, e3, e4, ?_⟩
    cases r
    simp only at h3 h4 ⊢
    subst h3 h4
    simp [lastOr_none]

/-! ## C51: what comes back -/

private theorem reparseL_eq (l : List XNode) : reparseL l = l.map reparse := by
  induction l with
  | nil => rw [reparseL]; rfl
  | cons n l ih => rw [reparseL, ih]; rfl

theorem Spec.Medium.carry_elem (m : Medium) (tag : String) (a : List (String × String)) (t : Option String)
    (cs : List XNode) : m.carry (.elem tag a t cs) = .elem tag a (m.text t) (cs.map m.carry) := by
  cases m with
  | tree => simp [Medium.carry, Medium.text]
  | document => simp only [Medium.carry, Medium.text]; rw [reparse, reparseL_eq]

theorem Spec.Medium.carry_other (m : Medium) : m.carry .other = .other := by
  cases m with
  | tree => rfl
  | document => simp only [Medium.carry]; rw [reparse]

theorem Spec.Medium.text_none (m : Medium) : m.text none = none := by cases m <;> rfl

@[simp] theorem Spec.Medium.carry_name (m : Medium) (n : XNode) : (m.carry n).name = n.name := by
  cases n with
  | elem => rw [m.carry_elem]; rfl
  | other => rw [m.carry_other]

@[simp] theorem Spec.Medium.carry_isElem (m : Medium) (n : XNode) : (m.carry n).isElem = n.isElem := by
  cases n with
  | elem => rw [m.carry_elem]; rfl
  | other => rw [m.carry_other]

private theorem each_write {α β} {m : Medium} {w : α → Except Exc XNode} {R : XNode → β → Prop} {Q : α → β → Prop}
    (h : ∀ a n, w a = .ok n → ∀ b, R (m.carry n) b ↔ Q a b) {l : List α} {ns : List XNode}
    (hw : forEach w l = .ok ns) {bs : List β} : Each R (ns.map m.carry) bs ↔ Each Q l bs := by
  induction l generalizing ns bs with
  | nil => rw [forEach] at hw; cases hw; exact Iff.rfl
  | cons a l ih =>
    rw [forEach, bind_ok_iff] at hw
    obtain ⟨n, h1, hw⟩ := hw
    rw [bind_ok_iff] at hw
    obtain ⟨ns, h2, hw⟩ := hw
    cases hw
    simp only [List.map_cons, each_cons, h a n h1, ih h2]

private theorem each_writable {α β} {w : α → Except Exc XNode} {Q : α → β → Prop}
    (h : ∀ a b, Q a b → ∃ n, w a = .ok n) {l : List α} {bs : List β} (hq : Each Q l bs) :
    ∃ ns, forEach w l = .ok ns := by
  induction l generalizing bs with
  | nil => exact ⟨[], by rw [forEach]⟩
  | cons a l ih =>
    rw [each_cons] at hq
    obtain ⟨b, bs', _, h1, h2⟩ := hq
    obtain ⟨n, hn⟩ := h a b h1
    obtain ⟨ns, hns⟩ := ih h2
    exact ⟨n :: ns, by rw [forEach, hn, hns]; rfl⟩

private theorem forEach_mem {α} {w : α → Except Exc XNode} {P : XNode → Prop} (h : ∀ a n, w a = .ok n → P n)
    {l : List α} {ns : List XNode} (hw : forEach w l = .ok ns) : ∀ n ∈ ns, P n := by
  induction l generalizing ns with
  | nil => rw [forEach] at hw; cases hw; simp
  | cons a l ih =>
    rw [forEach, bind_ok_iff] at hw
    obtain ⟨n, h1, hw⟩ := hw
    rw [bind_ok_iff] at hw
    obtain ⟨ns, h2, hw⟩ := hw
    cases hw
    exact List.forall_mem_cons.2 ⟨h a n h1, ih h2⟩

private theorem contextTag_name (k : String) (h : k.toList.all (· != '}')) : localPart (contextTag k) = k := by
  unfold localPart contextTag
  rw [String.toList_append, List.reverse_append]
  have h1 : ("{" ++ contextNs ++ "}").toList.reverse = '}' :: ("{" ++ contextNs).toList.reverse := by
    rw [String.toList_append, List.reverse_append]; rfl
  rw [h1, List.takeWhile_append_of_pos, List.takeWhile_cons_of_neg (by decide), List.append_nil, List.reverse_reverse,
    String.ofList_toList]
  intro c hc
  exact (List.all_eq_true.1 h) c (List.mem_reverse.1 hc)

/-- A node written as the element `k`. -/
private def Named (k : String) (n : XNode) : Prop := n.isElem = true ∧ n.name = k

private theorem named_make {lib : Etree} {k uri : String} (h : k.toList.all (· != '}')) {a : List (String × String)}
    {t : Option String} {cs : List XNode} : Named k (makeElement lib k uri a t cs) :=
  ⟨rfl, contextTag_name k h⟩

private theorem named_carry {m : Medium} {k : String} {n : XNode} (h : Named k n) : Named k (m.carry n) := by
  unfold Named at *
  rw [m.carry_name, m.carry_isElem]; exact h

private theorem elems_named {k : String} {l : List XNode} (h : ∀ n ∈ l, Named k n) : l.filter XNode.isElem = l :=
  List.filter_eq_self.2 fun n hn => (h n hn).1

private theorem filter_named {k : String} {l : List XNode} (h : ∀ n ∈ l, Named k n) :
    l.filter (fun c => decide (c.name = k)) = l :=
  List.filter_eq_self.2 fun n hn => by simp [(h n hn).2]

private theorem filter_named_ne {k k' : String} (hk : k ≠ k') {l : List XNode} (h : ∀ n ∈ l, Named k n) :
    l.filter (fun c => decide (c.name = k')) = [] :=
  List.filter_eq_nil_iff.2 fun n hn => by simp [(h n hn).2, hk]

private theorem map_carry_named {m : Medium} {k : String} {l : List XNode} (h : ∀ n ∈ l, Named k n) :
    ∀ n ∈ l.map m.carry, Named k n := by
  intro n hn
  obtain ⟨x, hx, rfl⟩ := List.mem_map.1 hn
  exact named_carry (h x hx)

private theorem carry_make (m : Medium) (lib : Etree) (k uri : String) (a : List (String × String)) (t : Option String)
    (cs : List XNode) :
    m.carry (makeElement lib k uri a t cs) = makeElement lib k uri a (m.text t) (cs.map m.carry) :=
  m.carry_elem ..

private theorem make_children {lib : Etree} {k uri : String} {a : List (String × String)} {t : Option String}
    {cs : List XNode} : (makeElement lib k uri a t cs).children = cs := rfl

private theorem make_text {lib : Etree} {k uri : String} {a : List (String × String)} {t : Option String}
    {cs : List XNode} : (makeElement lib k uri a t cs).text = t := rfl

private theorem make_attr {lib : Etree} {k uri : String} {a : List (String × String)} {t : Option String}
    {cs : List XNode} {x : String} (hx : x ≠ "xacml-context") :
    (makeElement lib k uri a t cs).attr x = dictGet a x := by
  unfold makeElement XNode.attr
  cases lib.lxml with
  | true => simp [dictGet, Ne.symm hx]
  | false => simp

def writeValue (lib : Etree) (v : AttrVal) : Except Exc XNode := do
  let t ← valueText v.value
  pure (makeElement lib "AttributeValue" "AttributeValue" [] t [])

private theorem valueText_ok {v : Option Native} {t : Option String} : valueText v = .ok t ↔ v = t.map .str := by
  cases v with
  | none => cases t <;> simp [valueText]
  | some x => cases x <;> cases t <;> simp [valueText, eq_comm]

theorem writeValue_ok {lib : Etree} {v : AttrVal} {n : XNode} : writeValue lib v = .ok n ↔
    ∃ t, v.value = t.map .str ∧ n = makeElement lib "AttributeValue" "AttributeValue" [] t [] := by
  unfold writeValue
  simp only [bind_ok_iff, valueText_ok]
  constructor
  · rintro ⟨t, h1, h2⟩; cases h2; exact ⟨t, h1, rfl⟩
  · rintro ⟨t, h1, rfl⟩; exact ⟨t, h1, rfl⟩

private theorem value_back {m : Medium} {lib : Etree} {cm : List (String × AVClass)} {dt : String} (v : AttrVal) (n : XNode)
    (h : writeValue lib v = .ok n) (v' : AttrVal) : IsCtxValue cm dt (m.carry n) v' ↔ ValueBack m cm dt v v' := by
  rw [writeValue_ok] at h
  obtain ⟨t, ht, rfl⟩ := h
  unfold IsCtxValue ValueBack
  rw [carry_make, make_text]
  constructor
  · rintro ⟨_, c, h1, h2, h3, ⟨h4, h5⟩ | ⟨x, h4, h5, h6⟩⟩
    · exact ⟨c, t, h1, h2, h3, ht, by rw [h4, h5]; rfl, by rw [h4]; simp⟩
    · exact ⟨c, t, h1, h2, h3, ht, by rw [h4, h6]; rfl, fun _ => h5⟩
  · rintro ⟨c, t', h1, h2, h3, h4, h5, h6⟩
    have : t' = t := by
      rw [ht] at h4
      cases t <;> cases t' <;> simp_all
    subst this
    refine ⟨contextTag_name _ (by decide), c, h1, h2, h3, ?_⟩
    cases hx : m.text t' with
    | none => exact .inl ⟨rfl, by rw [h5, hx]; rfl⟩
    | some x => exact .inr ⟨x, rfl, h6 (by rw [hx]; rfl), by rw [h5, hx]; rfl⟩

private theorem attribText_ok {o : Option String} {s : String} : attribText o = .ok s ↔ o = some s := by
  cases o <;> simp [attribText]

/-- The XML attributes of a written Attribute. -/
def attrAttribs (i dt : String) (iss : Option String) : List (String × String) :=
  [("AttributeId", i), ("DataType", dt)] ++ (match iss with | some x => [("Issuer", x)] | none => [])

theorem writeAttribute_ok {lib : Etree} {a : Attribute} {n : XNode} : writeAttribute lib a = .ok n ↔
    ∃ i dt ns, a.attributeId = some i ∧ a.dataType = some dt ∧ forEach (writeValue lib) a.values = .ok ns ∧
      n = makeElement lib "Attribute" contextNs (attrAttribs i dt a.issuer) none ns := by
  unfold writeAttribute
  simp only [bind_ok_iff, attribText_ok]
  constructor
  · rintro ⟨i, h1, dt, h2, ns, h3, h4⟩; cases h4; exact ⟨i, dt, ns, h1, h2, h3, rfl⟩
  · rintro ⟨i, dt, ns, h1, h2, h3, rfl⟩; exact ⟨i, h1, dt, h2, ns, h3, rfl⟩

private theorem writeAttribute_named {lib : Etree} (a : Attribute) (n : XNode) (h : writeAttribute lib a = .ok n) :
    Named "Attribute" n := by
  rw [writeAttribute_ok] at h
  obtain ⟨i, dt, ns, _, _, _, rfl⟩ := h
  exact named_make (by decide)

private theorem forEach_nil_iff {α} {w : α → Except Exc XNode} {l : List α} {ns : List XNode}
    (hw : forEach w l = .ok ns) : ns = [] ↔ l = [] := by
  have h := forEach_ok.1 hw
  have := each_length h
  rw [← List.length_eq_zero_iff, ← List.length_eq_zero_iff, this]

private theorem attribute_back {m : Medium} {lib : Etree} {cm : List (String × AVClass)} (a : Attribute) (n : XNode)
    (h : writeAttribute lib a = .ok n) (a' : Attribute) :
    IsAttribute cm (m.carry n) a' ↔ AttributeBack m cm a a' := by
  rw [writeAttribute_ok] at h
  obtain ⟨i, dt, ns, hi, hdt, hns, rfl⟩ := h
  have hN : ∀ x ∈ ns, Named "AttributeValue" x := forEach_mem (fun v n h => by
    rw [writeValue_ok] at h; obtain ⟨t, _, rfl⟩ := h; exact named_make (by decide)) hns
  unfold IsAttribute AttributeBack
  rw [carry_make, make_children, make_attr (by decide), make_attr (by decide), make_attr (by decide)]
  have e1 : dictGet (attrAttribs i dt a.issuer) "AttributeId" = some i := by simp [attrAttribs, dictGet]
  have e2 : dictGet (attrAttribs i dt a.issuer) "DataType" = some dt := by simp [attrAttribs, dictGet]
  have e3 : dictGet (attrAttribs i dt a.issuer) "Issuer" = a.issuer := by
    cases a.issuer <;> simp [attrAttribs, dictGet]
  have e4 : elems (makeElement lib "Attribute" contextNs (attrAttribs i dt a.issuer) (m.text none) (ns.map m.carry)) =
      ns.map m.carry := elems_named (map_carry_named hN)
  rw [e1, e2, e3, e4, hi, hdt]
  constructor
  · rintro ⟨_, h1, i', dt', h2, h3, h4, h5, h6, h7⟩
    cases h2; cases h4
    refine ⟨i, dt, rfl, h3, rfl, h5, h6, ?_, (each_write value_back hns).1 h7⟩
    intro h; rw [← forEach_nil_iff hns] at h; subst h; exact h1 rfl
  · rintro ⟨i', dt', h2, h3, h4, h5, h6, h1, h7⟩
    cases h2; cases h4
    refine ⟨contextTag_name _ (by decide), ?_, i, dt, rfl, h3, rfl, h5, h6, (each_write value_back hns).2 h7⟩
    intro h; rw [List.map_eq_nil_iff, forEach_nil_iff hns] at h; exact h1 h

private theorem attribute_writable {m : Medium} {lib : Etree} {cm : List (String × AVClass)} (a a' : Attribute)
    (h : AttributeBack m cm a a') : ∃ n, writeAttribute lib a = .ok n := by
  obtain ⟨i, dt, h1, _, h2, _, _, _, h3⟩ := h
  obtain ⟨ns, hns⟩ := each_writable (w := writeValue lib) (fun v v' ⟨c, t, _, _, _, h, _⟩ =>
    ⟨_, writeValue_ok.2 ⟨t, h, rfl⟩⟩) h3
  exact ⟨_, writeAttribute_ok.2 ⟨i, dt, ns, h1, h2, hns, rfl⟩⟩

/-- The attributes of a written part. -/
private theorem hasAttributes_back {m : Medium} {lib : Etree} {cm : List (String × AVClass)} {as : List Attribute}
    {ns : List XNode} (h : forEach (writeAttribute lib) as = .ok ns) {k uri : String} {at_ : List (String × String)}
    {as' : List Attribute} :
    HasAttributes cm (m.carry (makeElement lib k uri at_ none ns)) as' ↔ Each (AttributeBack m cm) as as' := by
  have hN := map_carry_named (m := m) (forEach_mem writeAttribute_named h)
  unfold HasAttributes childrenNamed elems
  rw [carry_make, make_children, elems_named hN, filter_named hN]
  exact each_write attribute_back h

theorem writeSubject_ok {lib : Etree} {s : CtxSubject} {n : XNode} : writeSubject lib s = .ok n ↔
    ∃ ns, forEach (writeAttribute lib) s.attributes = .ok ns ∧ n = makeElement lib "Subject" contextNs [] none ns := by
  unfold writeSubject
  simp only [bind_ok_iff]
  constructor
  · rintro ⟨ns, h1, h2⟩; cases h2; exact ⟨ns, h1, rfl⟩
  · rintro ⟨ns, h1, rfl⟩; exact ⟨ns, h1, rfl⟩

private theorem writeSubject_named {lib : Etree} (s : CtxSubject) (n : XNode) (h : writeSubject lib s = .ok n) :
    Named "Subject" n := by
  rw [writeSubject_ok] at h
  obtain ⟨ns, _, rfl⟩ := h
  exact named_make (by decide)

private theorem subject_back {m : Medium} {lib : Etree} {cm : List (String × AVClass)} (s : CtxSubject) (n : XNode)
    (h : writeSubject lib s = .ok n) (s' : CtxSubject) : IsSubject cm (m.carry n) s' ↔ SubjectBack m cm s s' := by
  rw [writeSubject_ok] at h
  obtain ⟨ns, hns, rfl⟩ := h
  unfold IsSubject SubjectBack
  rw [hasAttributes_back hns]
  have hattr : (m.carry (makeElement lib "Subject" contextNs [] none ns)).attr "SubjectCategory" = none := by
    rw [carry_make, make_attr (by decide)]; rfl
  rw [hattr, m.carry_name]
  constructor
  · rintro ⟨_, h1, ⟨_, h2, _⟩ | ⟨_, h2⟩⟩
    · cases h2
    · exact ⟨h2, h1⟩
  · rintro ⟨h2, h1⟩
    exact ⟨contextTag_name _ (by decide), h1, .inr ⟨rfl, h2⟩⟩

private theorem subject_writable {m : Medium} {lib : Etree} {cm : List (String × AVClass)} (s s' : CtxSubject)
    (h : SubjectBack m cm s s') : ∃ n, writeSubject lib s = .ok n := by
  obtain ⟨ns, hns⟩ := each_writable attribute_writable h.2
  exact ⟨_, writeSubject_ok.2 ⟨ns, hns, rfl⟩⟩

/-- The nodes written for the content of a resource. -/
def ContentNodes (c : Option Content) (l : List XNode) : Prop :=
  match c with
  | none => l = []
  | some .other => False
  | some (.node n) => l = [n]

theorem writeResource_ok {lib : Etree} {r : ResourceX} {n : XNode} : writeResource lib r = .ok n ↔
    ∃ l ns, ContentNodes r.content l ∧ forEach (writeAttribute lib) r.attributes = .ok ns ∧
      n = makeElement lib "Resource" contextNs [] none (l ++ ns) := by
  unfold writeResource ContentNodes
  cases r.content with
  | none =>
    simp only [bind_ok_iff, pure_bind]
    constructor
    · rintro ⟨ns, h1, h2⟩; cases h2; exact ⟨[], ns, rfl, h1, rfl⟩
    · rintro ⟨_, ns, rfl, h1, rfl⟩; exact ⟨ns, h1, rfl⟩
  | some c =>
    cases c with
    | node x =>
      simp only [bind_ok_iff, pure_bind]
      constructor
      · rintro ⟨ns, h1, h2⟩; cases h2; exact ⟨_, ns, rfl, h1, rfl⟩
      · rintro ⟨_, ns, rfl, h1, rfl⟩; exact ⟨ns, h1, rfl⟩
    | other =>
      constructor
      · intro h; cases h
      · rintro ⟨_, _, h, _⟩; exact h.elim

private theorem writeResource_named {lib : Etree} (r : ResourceX) (n : XNode) (h : writeResource lib r = .ok n) :
    Named "Resource" n := by
  rw [writeResource_ok] at h
  obtain ⟨l, ns, _, _, rfl⟩ := h
  exact named_make (by decide)

private theorem isElem_of_name {n : XNode} (h : n.name ≠ "") : n.isElem = true := by
  cases n with
  | elem => rfl
  | other => exact absurd rfl h

private theorem resource_back {m : Medium} {lib : Etree} {cm : List (String × AVClass)} (r : ResourceX) (n : XNode)
    (h : writeResource lib r = .ok n) (r' : ResourceX) : IsResource cm (m.carry n) r' ↔ ResourceBack m cm r r' := by
  rw [writeResource_ok] at h
  obtain ⟨l, ns, hl, hns, rfl⟩ := h
  have hN := map_carry_named (m := m) (forEach_mem writeAttribute_named hns)
  unfold IsResource HasAttributes childrenNamed elems
  rw [carry_make, make_children, List.map_append]
  simp only [List.filter_append, elems_named hN, filter_named hN]
  rw [filter_named_ne (k' := "ResourceContent") (by decide) hN, List.append_nil]
  have hname : (makeElement lib "Resource" contextNs [] (m.text none) (l.map m.carry ++ ns.map m.carry)).name = "Resource" :=
    contextTag_name _ (by decide)
  rw [hname]
  have hw : ∀ {bs}, Each (IsAttribute cm) (ns.map m.carry) bs ↔ Each (AttributeBack m cm) r.attributes bs :=
    each_write attribute_back hns
  unfold ResourceBack
  cases hc : r.content with
  | none =>
    rw [hc] at hl
    simp only [ContentNodes] at hl
    subst hl
    simp only [List.map_nil, List.filter_nil, List.nil_append, List.getLast?_nil, Option.map_none, true_and, hw]
    exact and_comm
  | some c =>
    rw [hc] at hl
    cases c with
    | other => exact hl.elim
    | node x =>
      simp only [ContentNodes] at hl
      subst hl
      simp only [List.map_cons, List.map_nil]
      by_cases h1 : x.name = "ResourceContent"
      · have he : x.isElem = true := isElem_of_name (by rw [h1]; decide)
        simp only [h1, if_true, List.filter_cons, m.carry_isElem, he, m.carry_name, List.filter_nil, decide_true,
          show decide ("ResourceContent" = "Attribute") = false by decide, Bool.false_eq_true, if_false,
          List.nil_append, List.getLast?_singleton, Option.map_some, true_and, hw]
        exact and_comm
      rw [if_neg h1]
      by_cases h2 : x.name = "Attribute"
      · have he : x.isElem = true := isElem_of_name (by rw [h2]; decide)
        simp only [h2, if_true, List.filter_cons, m.carry_isElem, he, m.carry_name, List.filter_nil, decide_true,
          show decide ("Attribute" = "ResourceContent") = false by decide, Bool.false_eq_true, if_false,
          List.getLast?_nil, Option.map_none, true_and, List.singleton_append, each_cons, hw]
        constructor
        · rintro ⟨⟨b, bs, h3, h4, h5⟩, h6⟩; exact ⟨h6, b, bs, h4, h3, h5⟩
        · rintro ⟨h6, b, bs, h4, h3, h5⟩; exact ⟨⟨b, bs, h3, h4, h5⟩, h6⟩
      · rw [if_neg h2]
        have e1 : ∀ k, x.name ≠ k → (([m.carry x].filter XNode.isElem).filter fun c => decide (c.name = k)) = [] := by
          intro k hk
          rw [List.filter_eq_nil_iff]
          intro y hy
          rw [List.mem_filter, List.mem_singleton] at hy
          rw [hy.1, m.carry_name]
          simpa using hk
        rw [e1 _ h1, e1 _ h2]
        simp only [List.nil_append, List.getLast?_nil, Option.map_none, true_and, hw]
        exact and_comm

private theorem resource_writable {m : Medium} {lib : Etree} {cm : List (String × AVClass)} (r r' : ResourceX)
    (h : ResourceBack m cm r r') : ∃ n, writeResource lib r = .ok n := by
  have key : ∃ bs, Each (AttributeBack m cm) r.attributes bs := by
    unfold ResourceBack at h
    split at h
    · exact ⟨_, h.2⟩
    · exact h.elim
    · split at h
      · exact ⟨_, h.2⟩
      · split at h
        · obtain ⟨_, a, as, _, _, h⟩ := h; exact ⟨_, h⟩
        · exact ⟨_, h.2⟩
  obtain ⟨bs, hb⟩ := key
  obtain ⟨ns, hns⟩ := each_writable (w := writeAttribute lib) attribute_writable hb
  have hl : ∃ l, ContentNodes r.content l := by
    unfold ResourceBack at h
    unfold ContentNodes
    cases hc : r.content with
    | none => exact ⟨_, rfl⟩
    | some c =>
      rw [hc] at h
      cases c with
      | other => exact h.elim
      | node x => exact ⟨_, rfl⟩
  obtain ⟨l, hl⟩ := hl
  exact ⟨_, writeResource_ok.2 ⟨l, ns, hl, hns, rfl⟩⟩

theorem writePart_ok {lib : Etree} {k : String} {p : Option (List Attribute)} {n : XNode} :
    writePart lib k p = .ok n ↔ ∃ as ns, p = some as ∧ forEach (writeAttribute lib) as = .ok ns ∧
      n = makeElement lib k contextNs [] none ns := by
  unfold writePart
  cases p with
  | none => simp
  | some as =>
    simp only [bind_ok_iff]
    constructor
    · rintro ⟨ns, h1, h2⟩; cases h2; exact ⟨as, ns, rfl, h1, rfl⟩
    · rintro ⟨_, ns, h, h1, rfl⟩; cases h; exact ⟨ns, h1, rfl⟩

private theorem part_back {m : Medium} {lib : Etree} {cm : List (String × AVClass)} {k : String}
    (hk : k.toList.all (· != '}')) {p : Option (List Attribute)} {n : XNode}
    (h : writePart lib k p = .ok n) {l' : List Attribute} :
    IsPart cm k (m.carry n) l' ↔ PartBack m cm p (some l') := by
  rw [writePart_ok] at h
  obtain ⟨as, ns, rfl, hns, rfl⟩ := h
  unfold IsPart PartBack
  rw [hasAttributes_back hns, m.carry_name]
  constructor
  · rintro ⟨_, h⟩; exact ⟨as, l', rfl, rfl, h⟩
  · rintro ⟨_, _, h1, h2, h⟩; cases h1; cases h2; exact ⟨contextTag_name _ hk, h⟩

private theorem part_writable {m : Medium} {lib : Etree} {cm : List (String × AVClass)} {k : String}
    {p p' : Option (List Attribute)} (h : PartBack m cm p p') : ∃ n, writePart lib k p = .ok n := by
  obtain ⟨l, l', h1, _, h2⟩ := h
  obtain ⟨ns, hns⟩ := each_writable (w := writeAttribute lib) attribute_writable h2
  exact ⟨_, writePart_ok.2 ⟨l, ns, h1, hns, rfl⟩⟩

theorem writeRequest_ok {lib : Etree} {r : RequestX} {n : XNode} : writeRequest lib r = .ok n ↔
    ∃ ss rs a e, forEach (writeSubject lib) r.subjects = .ok ss ∧ forEach (writeResource lib) r.resources = .ok rs ∧
      writePart lib "Action" r.action = .ok a ∧ writePart lib "Environment" r.environment = .ok e ∧
      n = makeElement lib "Request" contextNs [] none (ss ++ rs ++ [a, e]) := by
  unfold writeRequest
  simp only [bind_ok_iff]
  constructor
  · rintro ⟨ss, h1, rs, h2, a, h3, e, h4, h5⟩; cases h5; exact ⟨ss, rs, a, e, h1, h2, h3, h4, rfl⟩
  · rintro ⟨ss, rs, a, e, h1, h2, h3, h4, rfl⟩; exact ⟨ss, h1, rs, h2, a, h3, e, h4, rfl⟩

private theorem writePart_named {lib : Etree} {k : String} (hk : k.toList.all (· != '}'))
    {p : Option (List Attribute)} {n : XNode} (h : writePart lib k p = .ok n) : Named k n := by
  rw [writePart_ok] at h
  obtain ⟨_, _, _, _, rfl⟩ := h
  exact named_make hk

private theorem partBack_some {m : Medium} {cm : List (String × AVClass)} {p p' : Option (List Attribute)} :
    PartBack m cm p p' ↔ ∃ l', p' = some l' ∧ PartBack m cm p (some l') := by
  constructor
  · rintro ⟨l, l', h1, h2, h3⟩; exact ⟨l', h2, l, l', h1, rfl, h3⟩
  · rintro ⟨l', rfl, h⟩; exact h

private theorem request_back {m : Medium} {lib : Etree} {cm : List (String × AVClass)} {r : RequestX} {n : XNode}
    (h : writeRequest lib r = .ok n) {r' : RequestX} : IsRequest cm (m.carry n) r' ↔ RequestBack m cm r r' := by
  rw [writeRequest_ok] at h
  obtain ⟨ss, rs, a, e, hss, hrs, ha, he, rfl⟩ := h
  have nS := map_carry_named (m := m) (forEach_mem writeSubject_named hss)
  have nR := map_carry_named (m := m) (forEach_mem writeResource_named hrs)
  have nA : ∀ n ∈ [m.carry a], Named "Action" n := by
    intro n hn; rw [List.mem_singleton.1 hn]; exact named_carry (writePart_named (by decide) ha)
  have nE : ∀ n ∈ [m.carry e], Named "Environment" n := by
    intro n hn; rw [List.mem_singleton.1 hn]; exact named_carry (writePart_named (by decide) he)
  have hch : (ss ++ rs ++ [a, e]).map m.carry =
      ss.map m.carry ++ (rs.map m.carry ++ ([m.carry a] ++ [m.carry e])) := by simp
  unfold IsRequest RequestBack
  have hel : elems (m.carry (makeElement lib "Request" contextNs [] none (ss ++ rs ++ [a, e]))) =
      ss.map m.carry ++ (rs.map m.carry ++ ([m.carry a] ++ [m.carry e])) := by
    unfold elems
    rw [carry_make, make_children, hch]
    simp only [List.filter_append, elems_named nS, elems_named nR, elems_named nA, elems_named nE]
  unfold childrenNamed OnlyChildren
  rw [hel]
  simp only [List.filter_append]
  rw [filter_named nS, filter_named nR, filter_named nA, filter_named nE,
    filter_named_ne (k' := "Subject") (by decide) nR, filter_named_ne (k' := "Subject") (by decide) nA,
    filter_named_ne (k' := "Subject") (by decide) nE,
    filter_named_ne (k' := "Resource") (by decide) nS, filter_named_ne (k' := "Resource") (by decide) nA,
    filter_named_ne (k' := "Resource") (by decide) nE,
    filter_named_ne (k' := "Action") (by decide) nS, filter_named_ne (k' := "Action") (by decide) nR,
    filter_named_ne (k' := "Action") (by decide) nE,
    filter_named_ne (k' := "Environment") (by decide) nS, filter_named_ne (k' := "Environment") (by decide) nR,
    filter_named_ne (k' := "Environment") (by decide) nA]
  simp only [List.append_nil, List.nil_append, each_write subject_back hss, each_write resource_back hrs]
  have hlast : ∀ {k : String} {x : XNode} {p p' : Option (List Attribute)},
      (∀ l', IsPart cm k x l' ↔ PartBack m cm p (some l')) →
      (LastOf (IsPart cm k) [x] p' ↔ PartBack m cm p p') := by
    intro k x p p' hx
    unfold LastOf
    simp only [each_cons, each_nil, hx]
    constructor
    · rintro ⟨bs, ⟨b, _, rfl, h1, rfl⟩, h2⟩
      rw [partBack_some]; exact ⟨b, by simpa using h2, h1⟩
    · intro h
      obtain ⟨l', rfl, h1⟩ := partBack_some.1 h
      exact ⟨[l'], ⟨l', [], rfl, h1, rfl⟩, rfl⟩
  rw [hlast fun l' => part_back (by decide) ha, hlast fun l' => part_back (by decide) he, m.carry_name]
  constructor
  · rintro ⟨_, _, h⟩; exact h
  · intro h
    refine ⟨contextTag_name _ (by decide), ?_, h⟩
    intro c hc
    simp only [List.mem_append] at hc
    rcases hc with hc | hc | hc | hc
    · rw [(nS c hc).2]; decide
    · rw [(nR c hc).2]; decide
    · rw [(nA c hc).2]; decide
    · rw [(nE c hc).2]; decide

/-- **C51 (exact form).** What comes back, for every request, when it is written and read, as a tree or
as a document. -/
theorem C51_back (m : Medium) (lib : Etree) (hl : lib.getchildren = true) (cm : List (String × AVClass))
    (r r' : RequestX) :
    (∃ n, writeRequest lib r = .ok n ∧ readRequest lib cm (m.carry n) = .ok r') ↔ RequestBack m cm r r' := by
  constructor
  · rintro ⟨n, h1, h2⟩
    rw [C61_request lib hl] at h2
    exact (request_back h1).1 h2
  · intro h
    obtain ⟨h1, h2, h3, h4⟩ := h
    obtain ⟨ss, hss⟩ := each_writable (w := writeSubject lib) subject_writable h1
    obtain ⟨rs, hrs⟩ := each_writable (w := writeResource lib) resource_writable h2
    obtain ⟨a, ha⟩ := part_writable (lib := lib) (k := "Action") h3
    obtain ⟨e, he⟩ := part_writable (lib := lib) (k := "Environment") h4
    have hw := writeRequest_ok.2 ⟨ss, rs, a, e, hss, hrs, ha, he, rfl⟩
    exact ⟨_, hw, (C61_request lib hl cm _ r').2 ((request_back hw).2 ⟨h1, h2, h3, h4⟩)⟩

private theorem each_refl {α} {R : α → α → Prop} {l : List α} : Each R l l ↔ ∀ a ∈ l, R a a := by
  induction l with
  | nil => simp
  | cons a l ih =>
    rw [each_cons, List.forall_mem_cons, ← ih]
    constructor
    · rintro ⟨b, bs, h, h1, h2⟩; cases h; exact ⟨h1, h2⟩
    · rintro ⟨h1, h2⟩; exact ⟨a, l, rfl, h1, h2⟩

private theorem valueBack_refl {m : Medium} {cm : List (String × AVClass)} {dt : String} {v : AttrVal} :
    ValueBack m cm dt v v ↔ GoodValue m cm dt v := by
  unfold ValueBack GoodValue
  constructor
  · rintro ⟨c, t, h1, h2, h3, h4, h5, h6⟩
    refine ⟨c, h1, h2, h3, ?_⟩
    cases t with
    | none => exact .inl h4
    | some s =>
      have hs : m.text (some s) = some s := by
        rw [h4] at h5
        cases hm : m.text (some s) <;> rw [hm] at h5 <;> simp_all
      refine .inr ⟨s, h4, h6 (by rw [hs]; rfl), ?_⟩
      rintro rfl rfl
      cases hs
  · rintro ⟨c, h1, h2, h3, h4 | ⟨s, h4, h5, h6⟩⟩
    · exact ⟨c, none, h1, h2, h3, h4, by rw [m.text_none]; exact h4, by rw [m.text_none]; simp⟩
    · refine ⟨c, some s, h1, h2, h3, h4, ?_, fun _ => h5⟩
      cases m with
      | tree => exact h4
      | document =>
        have : Medium.document.text (some s) = some s := by simp [Medium.text, h6]
        rw [this]; exact h4

private theorem attributeBack_refl {m : Medium} {cm : List (String × AVClass)} {a : Attribute} :
    AttributeBack m cm a a ↔ GoodAttribute m cm a := by
  unfold AttributeBack GoodAttribute
  simp only [each_refl, valueBack_refl]
  constructor
  · rintro ⟨i, dt, h1, _, h2, _, _, h3, h4⟩; exact ⟨i, dt, h1, h2, h3, h4⟩
  · rintro ⟨i, dt, h1, h2, h3, h4⟩; exact ⟨i, dt, h1, h1, h2, h2, trivial, h3, h4⟩

private theorem resourceBack_refl {m : Medium} {cm : List (String × AVClass)} {r : ResourceX} :
    ResourceBack m cm r r ↔ (∀ a ∈ r.attributes, GoodAttribute m cm a) ∧
      (r.content = none ∨ ∃ n, r.content = some (.node n) ∧ n.name = "ResourceContent" ∧ m.carry n = n) := by
  unfold ResourceBack
  simp only [each_refl, attributeBack_refl]
  cases hc : r.content with
  | none => simp
  | some c =>
    cases c with
    | other => simp
    | node x =>
      simp only
      by_cases h1 : x.name = "ResourceContent"
      · rw [if_pos h1]
        constructor
        · rintro ⟨h2, h3⟩
          simp only [Option.some.injEq, Content.node.injEq] at h2
          exact ⟨h3, .inr ⟨x, rfl, h1, h2.symm⟩⟩
        · rintro ⟨h3, h4 | ⟨y, h4, _, h5⟩⟩
          · cases h4
          · cases h4; exact ⟨by rw [h5], h3⟩
      · rw [if_neg h1]
        constructor
        · intro h; split at h <;> exact absurd h.1 (by simp)
        · rintro ⟨_, h4 | ⟨y, h4, h5, _⟩⟩
          · cases h4
          · cases h4; exact absurd h5 h1

private theorem partBack_refl {m : Medium} {cm : List (String × AVClass)} {p : Option (List Attribute)} :
    PartBack m cm p p ↔ ∃ l, p = some l ∧ ∀ a ∈ l, GoodAttribute m cm a := by
  unfold PartBack
  constructor
  · rintro ⟨l, l', h1, h2, h3⟩
    rw [h1] at h2; cases h2
    exact ⟨l, h1, fun a ha => attributeBack_refl.1 (each_refl.1 h3 a ha)⟩
  · rintro ⟨l, h1, h2⟩
    exact ⟨l, l, h1, h1, each_refl.2 fun a ha => attributeBack_refl.2 (h2 a ha)⟩

/-- **C51 (partial).** Writing and reading gives back the same request exactly for the requests whose
values are strings of the registered class, whose attributes have values, whose subjects are access
subjects and whose resource contents are ResourceContent elements. Missing from C51: all the others. -/
theorem C51_partial (m : Medium) (lib : Etree) (hl : lib.getchildren = true) (cm : List (String × AVClass))
    (r : RequestX) :
    (∃ n, writeRequest lib r = .ok n ∧ readRequest lib cm (m.carry n) = .ok r) ↔ GoodRequest m cm r := by
  rw [C51_back m lib hl]
  unfold RequestBack GoodRequest
  simp only [each_refl, resourceBack_refl, partBack_refl]
  unfold SubjectBack
  simp only [each_refl, attributeBack_refl]

theorem each_mem_right {α β} {R : α → β → Prop} {as : List α} {bs : List β} (h : Each R as bs) :
    ∀ b ∈ bs, ∃ a ∈ as, R a b := by
  induction as generalizing bs with
  | nil => rw [each_nil] at h; subst h; simp
  | cons a as ih =>
    rw [each_cons] at h
    obtain ⟨b, bs', rfl, h1, h2⟩ := h
    intro x hx
    rcases List.mem_cons.1 hx with rfl | hx
    · exact ⟨a, by simp, h1⟩
    · obtain ⟨y, hy, hr⟩ := ih h2 x hx; exact ⟨y, by simp [hy], hr⟩

theorem each_mem_left {α β} {R : α → β → Prop} {as : List α} {bs : List β} (h : Each R as bs) :
    ∀ a ∈ as, ∃ b ∈ bs, R a b := by
  induction as generalizing bs with
  | nil => simp
  | cons a as ih =>
    rw [each_cons] at h
    obtain ⟨b, bs', rfl, h1, h2⟩ := h
    intro x hx
    rcases List.mem_cons.1 hx with rfl | hx
    · exact ⟨b, by simp, h1⟩
    · obtain ⟨y, hy, hr⟩ := ih h2 x hx; exact ⟨y, by simp [hy], hr⟩

/-- **C51 (violation).** Whatever the category of a subject, it comes back as an access subject. -/
theorem C51_violated_category (m : Medium) (lib : Etree) (hl : lib.getchildren = true) (cm : List (String × AVClass))
    (r r' : RequestX) (n : XNode) (hw : writeRequest lib r = .ok n) (hr : readRequest lib cm (m.carry n) = .ok r') :
    ∀ s ∈ r'.subjects, s.category = some "urn:oasis:names:tc:xacml:1.0:subject-category:access-subject" := by
  have h := (C51_back m lib hl cm r r').1 ⟨n, hw, hr⟩
  intro s hs
  obtain ⟨_, _, h'⟩ := each_mem_right h.1 s hs
  exact h'.1

/-- **C51 (violation).** A request with an attribute that has no values, or a value that is not a string,
does not come back at all. -/
theorem C51_violated_values (m : Medium) (lib : Etree) (hl : lib.getchildren = true) (cm : List (String × AVClass))
    (r : RequestX) (s : CtxSubject) (hs : s ∈ r.subjects) (a : Attribute) (ha : a ∈ s.attributes)
    (hv : a.values = [] ∨ ∃ v ∈ a.values, ∃ x, v.value = some x ∧ ∀ t, x ≠ .str t) :
    ¬ ∃ n r', writeRequest lib r = .ok n ∧ readRequest lib cm (m.carry n) = .ok r' := by
  rintro ⟨n, r', hw, hr⟩
  have h := (C51_back m lib hl cm r r').1 ⟨n, hw, hr⟩
  obtain ⟨s', _, h1⟩ := each_mem_left h.1 s hs
  obtain ⟨a', _, i, dt, _, _, _, _, _, h2, h3⟩ := each_mem_left h1.2 a ha
  rcases hv with hv | ⟨v, hv, x, hx, hx'⟩
  · exact h2 hv
  · obtain ⟨v', _, c, t, _, _, _, h4, _⟩ := each_mem_left h3 v hv
    rw [hx] at h4
    cases t with
    | none => cases h4
    | some t => simp only [Option.map_some, Option.some.injEq] at h4; exact hx' t h4

private theorem forEach_mem_ok {α β} {f : α → Except Exc β} {l : List α} {bs : List β} (h : forEach f l = .ok bs) :
    ∀ a ∈ l, ∃ b, f a = .ok b := fun a ha => by
  obtain ⟨b, _, hb⟩ := each_mem_left (forEach_ok.1 h) a ha
  exact ⟨b, hb⟩

/-- **C51 (violation).** With the standard library of Python 3.9 and later, whose elements have no
`getchildren`, no Attribute element is ever read. -/
theorem C51_violated_getchildren (lib : Etree) (hl : lib.getchildren = false) (cm : List (String × AVClass)) (n : XNode)
    (r : RequestX) (hr : readRequest lib cm n = .ok r) (s : XNode) (hs : s ∈ childrenNamed n "Subject") :
    childrenNamed s "Attribute" = [] := by
  have key : ∀ (l : List XNode) (r0 : RequestX), readRequestChildren lib cm r0 l = .ok r → s ∈ l → s.name = "Subject" →
      ∃ x, readSubject lib cm s = .ok x := by
    intro l
    induction l with
    | nil => intro _ _ h; cases h
    | cons c l ih =>
      intro r0 h hm hn
      rw [readRequestChildren] at h
      rcases List.mem_cons.1 hm with rfl | hm
      · rw [if_pos hn, bind_ok_iff] at h
        obtain ⟨x, hx, _⟩ := h
        exact ⟨x, hx⟩
      · by_cases h1 : c.name = "Subject"
        · rw [if_pos h1, bind_ok_iff] at h; obtain ⟨_, _, h⟩ := h; exact ih _ h hm hn
        rw [if_neg h1] at h
        by_cases h2 : c.name = "Resource"
        · rw [if_pos h2, bind_ok_iff] at h; obtain ⟨_, _, h⟩ := h; exact ih _ h hm hn
        rw [if_neg h2] at h
        by_cases h3 : c.name = "Action"
        · rw [if_pos h3, bind_ok_iff] at h; obtain ⟨_, _, h⟩ := h; exact ih _ h hm hn
        rw [if_neg h3] at h
        by_cases h4 : c.name = "Environment"
        · rw [if_pos h4, bind_ok_iff] at h; obtain ⟨_, _, h⟩ := h; exact ih _ h hm hn
        rw [if_neg h4] at h
        cases h
  unfold readRequest at hr
  rw [bind_ok_iff] at hr
  obtain ⟨_, _, hr⟩ := hr
  unfold childrenNamed at hs
  rw [List.mem_filter] at hs
  obtain ⟨x, hx⟩ := key _ _ hr hs.1 (by simpa using hs.2)
  unfold readSubject at hx
  rw [bind_ok_iff] at hx
  obtain ⟨_, _, hx⟩ := hx
  rw [bind_ok_iff] at hx
  obtain ⟨as, hx, _⟩ := hx
  unfold readAttributes at hx
  cases hc : childrenNamed s "Attribute" with
  | nil => rfl
  | cons a l =>
    obtain ⟨b, hb⟩ := forEach_mem_ok hx a (by
      have : a ∈ childrenNamed s "Attribute" := by rw [hc]; simp
      exact this)
    unfold readAttribute at hb
    simp only [bind_ok_iff, hl, Bool.not_false, if_true] at hb
    obtain ⟨_, _, _, _, _, _, _, h, _⟩ := hb
    cases h

/-! ## C52: responses -/

private theorem decision_text (d : Decision) : Decision.ofString d.text = some d := by cases d <;> rfl

private theorem decision_text_carry (m : Medium) (d : Decision) : m.text (some d.text) = some d.text := by
  cases m with
  | tree => rfl
  | document => cases d <;> simp [Medium.text, Decision.text]

theorem writeResult_ok {lib : Etree} {r : ResultX} {n : XNode} : writeResult lib r = .ok n ↔
    r.resourceId = none ∧ ∃ d, r.decision = some d ∧ n = makeElement lib "Result" contextNs [] none
      [makeElement lib "Decision" contextNs [] (some d.text) []] := by
  unfold writeResult
  cases r.resourceId with
  | some _ => simp
  | none => cases r.decision <;> simp [eq_comm]

private theorem readResult_back {m : Medium} {lib : Etree} (r : ResultX) (n : XNode) (h : writeResult lib r = .ok n)
    (r' : ResultX) : readResponseChild (m.carry n) = .ok r' ↔ ResultBack r r' := by
  rw [writeResult_ok] at h
  obtain ⟨h1, d, hd, rfl⟩ := h
  have hn : (m.carry (makeElement lib "Result" contextNs [] none
      [makeElement lib "Decision" contextNs [] (some d.text) []])).name = "Result" := by
    rw [m.carry_name]; exact contextTag_name _ (by decide)
  unfold readResponseChild
  rw [if_pos hn]
  unfold readResult
  have he : expectName (m.carry (makeElement lib "Result" contextNs [] none
      [makeElement lib "Decision" contextNs [] (some d.text) []])) "Result" = .ok () := expectName_ok.2 hn
  rw [he, carry_make, make_attr (by decide), make_children]
  have hdn : (makeElement lib "Decision" contextNs [] (some d.text) []).name = "Decision" :=
    contextTag_name _ (by decide)
  have hch : elementChildren (List.map m.carry [makeElement lib "Decision" contextNs [] (some d.text) []]) =
      [makeElement lib "Decision" contextNs [] (some d.text) []] := by
    rw [List.map_cons, List.map_nil, carry_make, decision_text_carry]; rfl
  rw [hch]
  have hrd : readDecision (makeElement lib "Decision" contextNs [] (some d.text) []) = .ok d := by
    unfold readDecision
    rw [(expectName_ok (u := ())).2 hdn, make_text]
    show (match Decision.ofString d.text with | some d => pure d | none => .error Exc.attributeError) = Except.ok d
    rw [decision_text]
    rfl
  have hall : readResultChildren { resourceId := dictGet ([] : List (String × String)) "ResourceId" }
      [makeElement lib "Decision" contextNs [] (some d.text) []] = .ok { decision := some d } := by
    rw [readResultChildren, if_pos hdn, hrd]
    rfl
  show (readResultChildren _ _ = _) ↔ _
  rw [hall]
  unfold ResultBack
  constructor
  · intro h; cases h; exact ⟨h1, d, hd, rfl⟩
  · rintro ⟨_, d', h2, rfl⟩; rw [hd] at h2; cases h2; rfl

/-- **C52 (exact form).** What comes back, for every response, when it is written and read. -/
theorem C52_back (m : Medium) (lib : Etree) (rs rs' : List ResultX) :
    (∃ n, writeResponse lib rs = .ok n ∧ readResponse (m.carry n) = .ok rs') ↔ Each ResultBack rs rs' := by
  have hnamed : ∀ (r : ResultX) (n : XNode), writeResult lib r = .ok n → Named "Result" n := by
    intro r n h
    rw [writeResult_ok] at h
    obtain ⟨_, d, _, rfl⟩ := h
    exact named_make (by decide)
  have key : ∀ ns, forEach (writeResult lib) rs = .ok ns →
      (readResponse (m.carry (makeElement lib "Response" contextNs [] none ns)) = .ok rs' ↔ Each ResultBack rs rs') := by
    intro ns hns
    have hN := map_carry_named (m := m) (forEach_mem hnamed hns)
    unfold readResponse
    simp only [bind_ok_iff, expectName_ok, forEach_ok, m.carry_name]
    rw [carry_make, make_children, elementChildren, elems_named hN, each_write readResult_back hns]
    constructor
    · rintro ⟨_, _, h⟩; exact h
    · intro h; exact ⟨(), contextTag_name _ (by decide), h⟩
  unfold writeResponse
  constructor
  · rintro ⟨n, h1, h2⟩
    rw [bind_ok_iff] at h1
    obtain ⟨ns, hns, h1⟩ := h1
    cases h1
    exact (key ns hns).1 h2
  · intro h
    obtain ⟨ns, hns⟩ := each_writable (w := writeResult lib) (fun r r' ⟨h1, d, hd, _⟩ =>
      ⟨_, writeResult_ok.2 ⟨h1, d, hd, rfl⟩⟩) h
    exact ⟨_, by rw [hns]; rfl, (key ns hns).2 h⟩

/-- **C52 (partial).** A response whose results have decisions and no resource ids is written and read
back with the same decisions in the same order. Missing from C52: results with a resource id (see
`C52_violated`) and the other data of the results. -/
theorem C52_partial (m : Medium) (lib : Etree) (rs : List ResultX)
    (hid : ∀ r ∈ rs, r.resourceId = none) (hd : ∀ r ∈ rs, r.decision ≠ none) :
    ∃ n rs', writeResponse lib rs = .ok n ∧ readResponse (m.carry n) = .ok rs' ∧
      rs'.map (·.decision) = rs.map (·.decision) := by
  have h : Each ResultBack rs (rs.map fun r => { decision := r.decision }) := by
    induction rs with
    | nil => simp
    | cons r rs ih =>
      rw [List.map_cons, each_cons]
      refine ⟨_, _, rfl, ⟨hid r (by simp), ?_⟩,
        ih (fun x hx => hid x (by simp [hx])) (fun x hx => hd x (by simp [hx]))⟩
      cases h : r.decision with
      | none => exact absurd h (hd r (by simp))
      | some d => exact ⟨d, rfl, rfl⟩
  obtain ⟨n, h1, h2⟩ := (C52_back m lib rs _).2 h
  exact ⟨n, _, h1, h2, by rw [List.map_map]; rfl⟩

/-- **C52 (violation).** A response with a result for a named resource cannot be written at all. -/
theorem C52_violated (lib : Etree) (rs : List ResultX) (r : ResultX) (hr : r ∈ rs) (hid : r.resourceId ≠ none) :
    ∀ n, writeResponse lib rs ≠ .ok n := by
  intro n h
  unfold writeResponse at h
  rw [bind_ok_iff] at h
  obtain ⟨ns, hns, _⟩ := h
  obtain ⟨b, hb⟩ := forEach_mem_ok hns r hr
  exact hid (writeResult_ok.1 hb).1

/-! ## C62: response documents -/

private theorem readDecision_ok {n : XNode} {d : Decision} : readDecision n = .ok d ↔ IsDecision n d := by
  unfold readDecision IsDecision
  simp only [bind_ok_iff, expectName_ok]
  have hword : ∀ s, Decision.ofString s = some d ↔ s = decisionWord d := by
    intro s
    constructor
    · intro h
      unfold Decision.ofString at h
      split at h <;> cases h <;> rfl
    · rintro rfl; cases d <;> rfl
  cases n.text with
  | none => simp
  | some s =>
    simp only [Option.some.injEq, ← hword]
    cases h : Decision.ofString s with
    | none => simp
    | some x =>
      simp only [Option.some.injEq]
      constructor
      · rintro ⟨_, h1, h2⟩; cases h2; exact ⟨h1, rfl⟩
      · rintro ⟨h1, rfl⟩; exact ⟨(), h1, rfl⟩

private theorem readResultChildren_ok {l : List XNode} {r r' : ResultX} : readResultChildren r l = .ok r' ↔
    ∃ ds, Each IsDecision l ds ∧ r' = { r with decision := lastOr ds r.decision } := by
  induction l generalizing r with
  | nil =>
    rw [readResultChildren]
    constructor
    · intro h; cases h; exact ⟨[], by simp, by rw [lastOr_nil]⟩
    · rintro ⟨ds, h, rfl⟩; rw [each_nil] at h; subst h; rw [lastOr_nil]
  | cons c l ih =>
    rw [readResultChildren]
    by_cases hc : c.name = "Decision"
    · rw [if_pos hc]
      simp only [bind_ok_iff, readDecision_ok, ih, each_cons]
      constructor
      · rintro ⟨d, h1, ds, h2, rfl⟩; exact ⟨d :: ds, ⟨d, ds, rfl, h1, h2⟩, by rw [lastOr_cons]⟩
      · rintro ⟨_, ⟨d, ds, rfl, h1, h2⟩, rfl⟩; exact ⟨d, h1, ds, h2, by rw [lastOr_cons]⟩
    · rw [if_neg hc]
      constructor
      · intro h; cases h
      · rintro ⟨ds, h, _⟩
        rw [each_cons] at h
        obtain ⟨_, _, _, h, _⟩ := h
        exact absurd h.1 hc

private theorem readResponseChild_ok {n : XNode} {r : ResultX} : readResponseChild n = .ok r ↔ IsResult n r := by
  unfold readResponseChild IsResult
  by_cases hn : n.name = "Result"
  · rw [if_pos hn]
    unfold readResult LastOf
    simp only [bind_ok_iff, expectName_ok, readResultChildren_ok]
    constructor
    · rintro ⟨_, _, ds, h, rfl⟩; exact ⟨hn, rfl, ⟨ds, h, lastOr_none _⟩, rfl, rfl⟩
    · rintro ⟨_, h1, ⟨ds, h2, h3⟩, h4, h5⟩
      refine ⟨(), hn, ds, h2, ?_⟩
      cases r
      simp only at h1 h3 h4 h5 ⊢
      subst h1 h3 h4 h5
      rw [lastOr_none]
  · rw [if_neg hn]; simp [hn]

/-- **C62.** Reading a response succeeds exactly on the elements that the grammar describes, with the data
it says. -/
theorem C62_response (n : XNode) (rs : List ResultX) : readResponse n = .ok rs ↔ IsResponse n rs := by
  unfold readResponse IsResponse
  simp only [bind_ok_iff, expectName_ok, forEach_ok, readResponseChild_ok]
  constructor
  · rintro ⟨_, h1, h2⟩; exact ⟨h1, h2⟩
  · rintro ⟨h1, h2⟩; exact ⟨(), h1, h2⟩

/-- **C62.** A response in which some result has a Status or an Obligations element, as the standard has
it, is not read. -/
theorem C62_status (n c x : XNode) (hc : c ∈ elems n) (hx : x ∈ elems c) (h : x.name ≠ "Decision") :
    ∀ rs, readResponse n ≠ .ok rs := by
  intro rs hr
  rw [C62_response] at hr
  obtain ⟨r, _, hr⟩ := each_mem_left hr.2 c hc
  obtain ⟨_, _, ⟨ds, hd, _⟩, _⟩ := hr
  obtain ⟨d, _, hd⟩ := each_mem_left hd x hx
  exact h hd.1

/-! ## Cases -/

section Samples
open Samples

private def lib : Etree := { lxml := true, getchildren := true }

private def goodReq : RequestX where
  subjects := [{ category := some accessSubject, attributes := [roleAttr ["doctor", "nurse"]] }]
  resources := [{ attributes := [roleAttr ["x"]], content := some (.node (.elem "{urn:x}ResourceContent" [] (some "t") [])) }]
  action := some [actAttr "read"]
  environment := some []

private theorem goodReq_good (m : Medium) : GoodRequest m stdClassMap goodReq := by
  have hrole : ∀ vs, vs ≠ [] → "" ∉ vs → GoodAttribute m stdClassMap (roleAttr vs) := by
    intro vs hne hmem
    refine ⟨_, _, rfl, rfl, by simpa [roleAttr] using hne, ?_⟩
    intro v hv
    simp only [roleAttr, List.mem_map] at hv
    obtain ⟨s, hs, rfl⟩ := hv
    exact ⟨stringClass, by decide +kernel, rfl, rfl, .inr ⟨s, rfl, rfl, fun _ h => hmem (h ▸ hs)⟩⟩
  refine ⟨?_, ?_, ⟨_, rfl, ?_⟩, ⟨_, rfl, by simp⟩⟩
  · intro s hs
    simp only [goodReq, List.mem_singleton] at hs
    subst hs
    refine ⟨rfl, ?_⟩
    intro a ha
    rw [List.mem_singleton] at ha
    subst ha
    exact hrole _ (by simp) (by simp)
  · intro s hs
    simp only [goodReq, List.mem_singleton] at hs
    subst hs
    refine ⟨?_, .inr ⟨_, rfl, by decide +kernel, ?_⟩⟩
    · intro a ha
      rw [List.mem_singleton] at ha
      subst ha
      exact hrole _ (by simp) (by simp)
    · cases m <;> rfl
  · intro a ha
    rw [List.mem_singleton] at ha
    subst ha
    refine ⟨_, _, rfl, rfl, by simp [actAttr], ?_⟩
    intro v hv
    simp only [actAttr, List.mem_singleton] at hv
    subst hv
    exact ⟨_, by decide +kernel, rfl, rfl, .inr ⟨"read", rfl, rfl, by simp⟩⟩

example (m : Medium) : ∃ n, writeRequest lib goodReq = .ok n ∧ readRequest lib stdClassMap (m.carry n) = .ok goodReq :=
  (C51_partial m lib rfl _ _).2 (goodReq_good m)

/-- C61: the grammar is met. -/
example : ∃ n, IsRequest stdClassMap n goodReq := by
  obtain ⟨n, _, h⟩ := (C51_partial .tree lib rfl _ _).2 (goodReq_good .tree)
  exact ⟨_, (C61_request lib rfl _ _ _).1 h⟩

/-- A request whose subject is the codebase, as the code allows. -/
private def codeReq : RequestX :=
  { goodReq with subjects := [{ category := some "urn:codebase", attributes := [roleAttr ["x"]] }] }

example : ∃ n r', writeRequest lib codeReq = .ok n ∧ readRequest lib stdClassMap n = .ok r' ∧
    codeReq.subjects.map (·.category) = [some "urn:codebase"] ∧ r'.subjects.map (·.category) = [some accessSubject] := by
  have h : RequestBack .tree stdClassMap codeReq
      { goodReq with subjects := [{ category := some accessSubject, attributes := [roleAttr ["x"]] }] } := by
    have hg := (C51_back .tree lib rfl stdClassMap goodReq goodReq).1
      ((C51_partial .tree lib rfl _ _).2 (goodReq_good .tree))
    refine ⟨⟨_, _, rfl, ⟨rfl, ⟨_, _, rfl, ?_, rfl⟩⟩, rfl⟩, hg.2.1, hg.2.2.1, hg.2.2.2⟩
    refine attributeBack_refl.2 ⟨_, _, rfl, rfl, by simp [roleAttr], ?_⟩
    intro v hv
    simp only [roleAttr, List.map_cons, List.map_nil, List.mem_singleton] at hv
    subst hv
    exact ⟨stringClass, by decide +kernel, rfl, rfl, .inr ⟨"x", rfl, rfl, by simp⟩⟩
  obtain ⟨n, h1, h2⟩ := (C51_back .tree lib rfl _ _ _).2 h
  exact ⟨n, _, h1, h2, rfl, rfl⟩

/-- Hypotheses of `C51_violated_values`: attributes without values and integer values exist. -/
example : ∃ (r : RequestX) (s : CtxSubject) (a : Attribute), s ∈ r.subjects ∧ a ∈ s.attributes ∧ a.values = [] :=
  ⟨{ subjects := [{ category := none, attributes := [roleAttr []] }] }, _, _, List.mem_singleton.2 rfl,
    List.mem_singleton.2 rfl, rfl⟩

/-- Hypotheses of `C51_violated_getchildren`: a request without attributes is read. -/
example : ∃ n r s, readRequest { lxml := false, getchildren := false } stdClassMap n = .ok r ∧
    s ∈ childrenNamed n "Subject" :=
  ⟨.elem "Request" [] none [.elem "Subject" [] none []], _, .elem "Subject" [] none [], rfl, by
    simp [childrenNamed, elems, XNode.children, XNode.isElem]; decide +kernel⟩

example (m : Medium) : ∃ n rs', writeResponse lib [{ decision := some .permit }, { decision := some .deny, status := some "ok" }] =
    .ok n ∧ readResponse (m.carry n) = .ok rs' ∧ rs'.map (·.decision) = [some .permit, some .deny] :=
  C52_partial m lib _ (by simp) (by simp)

example : ∀ n, writeResponse lib [{ decision := some .permit, resourceId := some "r" }] ≠ .ok n :=
  C52_violated lib _ _ (List.mem_singleton.2 rfl) (by simp)

private def respDoc : XNode := .elem "{c}Response" [] none
  [.elem "{c}Result" [("ResourceId", "r")] none [.elem "{c}Decision" [] (some "Permit") []]]

example : IsResponse respDoc [{ resourceId := some "r", decision := some .permit }] :=
  (C62_response _ _).1 rfl

private def respStatus : XNode := .elem "{c}Response" [] none
  [.elem "{c}Result" [] none [.elem "{c}Decision" [] (some "Permit") [], .elem "{c}Status" [] none []]]

example : ∀ rs, readResponse respStatus ≠ .ok rs :=
  C62_status respStatus (.elem "{c}Result" [] none [.elem "{c}Decision" [] (some "Permit") [], .elem "{c}Status" [] none []])
    (.elem "{c}Status" [] none []) (by simp [respStatus, elems, XNode.children, XNode.isElem])
    (by simp [elems, XNode.children, XNode.isElem]) (by decide +kernel)

end Samples

end Xacml
