import Verif.Spec.QName
import Verif.Lemmas.PrettyPrint
import Verif.Model.Xml

/-!
# C99: qualified names
-/
namespace Xacml
open Spec

/-! ## Taking names apart -/

private theorem takeWhile_all' {P : Char → Bool} {a b : Chars} (ha : ∀ c ∈ a, P c = true) (hb : ∀ c, b.head? = some c → P c = false) :
    (a ++ b).takeWhile P = a := by
  induction a with
  | nil =>
    cases b with
    | nil => rfl
    | cons c b => rw [List.nil_append, List.takeWhile_cons, hb c rfl]; rfl
  | cons c a ih =>
    rw [List.cons_append, List.takeWhile_cons, ha c (List.mem_cons_self ..)]
    simp [ih fun c hc => ha c (List.mem_cons_of_mem _ hc)]

theorem first_split {d : Char} {r : Chars} (h : d ∈ r) : ∃ a b, r = a ++ d :: b ∧ d ∉ a := by
  induction r with
  | nil => cases h
  | cons c r ih =>
    by_cases hc : c = d
    · exact ⟨[], r, by rw [hc]; rfl, List.not_mem_nil⟩
    · obtain ⟨a, b, hr, ha⟩ := ih (by
        rcases List.mem_cons.1 h with h | h
        · exact absurd h.symm hc
        · exact h)
      refine ⟨c :: a, b, by rw [hr]; rfl, fun hm => ?_⟩
      rcases List.mem_cons.1 hm with h | h
      · exact hc h.symm
      · exact ha h

theorem rightmost_brace (s : Chars) : (s.reverse.takeWhile (· != '}')).reverse = s ∧
      ((s.reverse.dropWhile (· != '}')).drop 1).reverse = [] ∧ '}' ∉ s ∨
    ∃ p l, s = p ++ '}' :: l ∧ '}' ∉ l ∧ (s.reverse.takeWhile (· != '}')).reverse = l ∧
      ((s.reverse.dropWhile (· != '}')).drop 1).reverse = p := by
  by_cases h : '}' ∈ s
  · right
    obtain ⟨a, b, hab, hb⟩ := first_split (List.mem_reverse.2 h)
    have hne : ∀ c ∈ a, (c != '}') = true := fun c hc => by
      rw [bne_iff_ne]; rintro rfl; exact hb hc
    refine ⟨b.reverse, a.reverse, ?_, by simpa using hb, ?_, ?_⟩
    · rw [← List.reverse_reverse s, hab]; simp
    · rw [hab, takeWhile_all' hne]
      intro c hc; cases hc; rfl
    · rw [hab, dropWhile_all hne]
      rfl
  · left
    have hne : ∀ c ∈ s.reverse, (c != '}') = true := fun c hc => by
      rw [bne_iff_ne]; rintro rfl; exact h (List.mem_reverse.1 hc)
    have h1 := takeWhile_all' (b := []) hne (by simp)
    have h2 := dropWhile_all hne []
    rw [List.append_nil] at h1 h2
    refine ⟨by rw [h1, List.reverse_reverse], by rw [h2]; rfl, h⟩

/-- `p ++ "}" ++ l` with no brace in `l`: every other closing brace comes before. -/
theorem brace_before {p l p' l' : Chars} (hl : '}' ∉ l) (h : p ++ '}' :: l = p' ++ '}' :: l') : p'.length ≤ p.length := by
  rcases Nat.lt_or_ge p.length p'.length with hlt | hge
  · have h1 : (p ++ '}' :: l)[p'.length]? = some '}' := by rw [h]; simp
    rw [List.getElem?_append_right (Nat.le_of_lt hlt)] at h1
    obtain ⟨k, hk⟩ : ∃ k, p'.length - p.length = k + 1 := ⟨p'.length - p.length - 1, by omega⟩
    rw [hk, List.getElem?_cons_succ] at h1
    exact absurd (List.mem_of_getElem? h1) hl
  · exact hge

/-- C99: the local part of a name is what follows its last closing brace, or everything. -/
theorem C99_local (s l : Chars) : qnLocalPart s = l ↔ '}' ∉ l ∧ (s = l ∨ ∃ p, s = p ++ '}' :: l) := by
  rw [qnLocalPart]
  rcases rightmost_brace s with ⟨h1, _, h3⟩ | ⟨p, k, hs, hk, h3, _⟩
  · rw [h1]
    constructor
    · rintro rfl; exact ⟨h3, .inl rfl⟩
    · rintro ⟨_, h | ⟨p, rfl⟩⟩
      · exact h
      · exact absurd (List.mem_append_right _ (List.mem_cons_self ..)) h3
  · rw [h3]
    constructor
    · rintro rfl; exact ⟨hk, .inr ⟨p, hs⟩⟩
    · rintro ⟨hl, h | ⟨p', h⟩⟩
      · subst h; subst hs
        exact absurd (List.mem_append_right _ (List.mem_cons_self ..)) hl
      · rw [hs] at h
        have h4 := Nat.le_antisymm (brace_before hl h.symm) (brace_before hk h)
        have := (List.append_inj h h4).2
        exact (List.cons.inj this).2

/-- C46, C99: readers see the same local part as `QName.getLocalPart` gives. -/
theorem C46_local (tag loc : String) :
    localPart tag = loc ↔ '}' ∉ loc.toList ∧ (tag = loc ∨ ∃ p, tag.toList = p ++ '}' :: loc.toList) := by
  have h : localPart tag = String.ofList (qnLocalPart tag.toList) := rfl
  rw [h, ← String.toList_inj, String.toList_ofList, C99_local, String.toList_inj]

private theorem line_split (rest : Chars) : ∃ w v, rest = w ++ v ∧ rest.takeWhile (· != '\n') = w ∧ '\n' ∉ w ∧
    (v = [] ∨ ∃ v', v = '\n' :: v') := by
  by_cases h : '\n' ∈ rest
  · obtain ⟨a, b, hr, ha⟩ := first_split h
    refine ⟨a, '\n' :: b, hr, ?_, ha, .inr ⟨b, rfl⟩⟩
    rw [hr, takeWhile_all']
    · intro c hc; rw [bne_iff_ne]; rintro rfl; exact ha hc
    · intro c hc; cases hc; rfl
  · refine ⟨rest, [], by simp, ?_, h, .inl rfl⟩
    have := takeWhile_all' (P := (· != '\n')) (a := rest) (b := []) (by
      intro c hc; rw [bne_iff_ne]; rintro rfl; exact h hc) (by simp)
    rwa [List.append_nil] at this

/-- Text within the first line, followed by something that is not a newline, lies within the line. -/
private theorem within_line {w v m q : Chars} (hv : v = [] ∨ ∃ v', v = '\n' :: v') (hm : '\n' ∉ m)
    (h : w ++ v = m ++ '}' :: q) : ∃ q', w = m ++ '}' :: q' := by
  induction m generalizing w with
  | nil =>
    cases w with
    | nil =>
      rcases hv with rfl | ⟨v', rfl⟩
      · cases h
      · simp at h
    | cons c w =>
      simp only [List.cons_append, List.nil_append, List.cons.injEq] at h
      exact ⟨w, by rw [h.1]; rfl⟩
  | cons d m ih =>
    cases w with
    | nil =>
      rcases hv with rfl | ⟨v', rfl⟩
      · cases h
      · simp only [List.nil_append, List.cons_append, List.cons.injEq] at h
        exact absurd (h.1 ▸ List.mem_cons_self ..) hm
    | cons c w =>
      simp only [List.cons_append, List.cons.injEq] at h
      obtain ⟨q', hq⟩ := ih (fun hx => hm (List.mem_cons_of_mem _ hx)) h.2
      exact ⟨q', by rw [h.1, hq]; rfl⟩

theorem nsAfterBrace_some {rest m : Chars} (h : nsAfterBrace rest = some m) :
    m ≠ [] ∧ '\n' ∉ m ∧ (∃ post, rest = m ++ '}' :: post) ∧
      ∀ m' post', rest = m' ++ '}' :: post' → '\n' ∉ m' → m'.length ≤ m.length := by
  obtain ⟨w, v, hr, hw, hn, hv⟩ := line_split rest
  rw [nsAfterBrace, hw] at h
  rcases rightmost_brace w with ⟨_, h2, _⟩ | ⟨p, l, hs, hl, _, h4⟩
  · rw [h2] at h; cases h
  · rw [h4] at h
    cases p with
    | nil => cases h
    | cons c p =>
      cases h
      refine ⟨by simp, fun hx => hn (hs ▸ List.mem_append_left _ hx), ⟨l ++ v, by rw [hr, hs]; simp⟩, ?_⟩
      intro m' post' h' hm'
      obtain ⟨q', hq⟩ := within_line hv hm' (hr ▸ h')
      exact brace_before hl (hs ▸ hq)

theorem nsAfterBrace_none {rest : Chars} (h : nsAfterBrace rest = none) :
    ∀ m' post', rest = m' ++ '}' :: post' → m' ≠ [] → '\n' ∈ m' := by
  intro m' post' h' hne
  apply Decidable.byContradiction
  intro hm'
  obtain ⟨w, v, hr, hw, hn, hv⟩ := line_split rest
  obtain ⟨q', hq⟩ := within_line hv hm' (hr ▸ h')
  rw [nsAfterBrace, hw] at h
  rcases rightmost_brace w with ⟨_, _, h3⟩ | ⟨p, l, hs, hl, _, h4⟩
  · exact h3 (hq ▸ List.mem_append_right _ (List.mem_cons_self ..))
  · rw [h4] at h
    have := brace_before hl (hs ▸ hq)
    cases p with
    | nil => cases m' with
      | nil => exact hne rfl
      | cons _ _ => simp at this
    | cons _ _ => cases h

/-- C99: the namespace of a name is what Python's regular expression finds first, or nothing. -/
theorem C99_namespace (s : Chars) : FirstMatch s (qnGetNs s) ∨ (∀ pre m post, ¬ BraceMatch s pre m post) ∧ qnGetNs s = [] := by
  induction s with
  | nil =>
    refine .inr ⟨?_, rfl⟩
    rintro pre m post ⟨h, _⟩
    cases pre <;> cases h
  | cons c rest ih =>
    have hskip : (∀ m post, c :: rest = '{' :: (m ++ '}' :: post) → m ≠ [] → '\n' ∈ m) → qnGetNs (c :: rest) = qnGetNs rest →
        FirstMatch (c :: rest) (qnGetNs (c :: rest)) ∨ (∀ pre m post, ¬ BraceMatch (c :: rest) pre m post) ∧ qnGetNs (c :: rest) = [] := by
      intro h0 he
      rw [he]
      rcases ih with ⟨pre, post, ⟨h1, h2, h3⟩, h4⟩ | ⟨h1, h2⟩
      · refine .inl ⟨c :: pre, post, ⟨congrArg (c :: ·) h1, h2, h3⟩, ?_⟩
        rintro pre' m' post' ⟨g1, g2, g3⟩
        cases pre' with
        | nil => exact absurd (h0 m' post' g1 g2) g3
        | cons d pre' =>
          simp only [List.cons_append, List.cons.injEq] at g1
          have := h4 pre' m' post' ⟨g1.2, g2, g3⟩
          simp only [List.length_cons]
          omega
      · refine .inr ⟨?_, h2⟩
        rintro pre' m' post' ⟨g1, g2, g3⟩
        cases pre' with
        | nil => exact absurd (h0 m' post' g1 g2) g3
        | cons d pre' =>
          simp only [List.cons_append, List.cons.injEq] at g1
          exact h1 pre' m' post' ⟨g1.2, g2, g3⟩
    by_cases hc : c = '{'
    · subst hc
      cases hn : nsAfterBrace rest with
      | none =>
        apply hskip
        · intro m post h1 h2
          exact nsAfterBrace_none hn m post (List.cons.inj h1).2 h2
        · simp only [qnGetNs, if_true, hn]
      | some m =>
        have he : qnGetNs ('{' :: rest) = m := by simp only [qnGetNs, if_true, hn]
        rw [he]
        obtain ⟨h1, h2, ⟨post, h3⟩, h4⟩ := nsAfterBrace_some hn
        refine .inl ⟨[], post, ⟨by rw [h3]; rfl, h1, h2⟩, ?_⟩
        rintro pre' m' post' ⟨g1, g2, g3⟩
        cases pre' with
        | nil => exact .inr ⟨rfl, h4 m' post' (List.cons.inj g1).2 g3⟩
        | cons d pre' => exact .inl (by simp)
    · apply hskip
      · intro m post h1
        exact absurd (List.cons.inj h1).1 hc
      · simp only [qnGetNs, if_neg hc]

/-! ## Names made in different ways -/

/-- C99: however a name is made, its properties are the namespace, the local name and the prefix. -/
theorem C99_parts {input : Chars} {tag : Option Chars} {u l : Chars} (h : Names input tag u l) (pfx : Option Chars) :
    (qnCreate input tag pfx).ns = u ∧ (qnCreate input tag pfx).loc = l ∧ (qnCreate input tag pfx).pfx = pfx := by
  have hfree : ∀ {l : Chars}, NCName l → '{' ∉ l ∧ '}' ∉ l ∧ l ≠ [] := by
    intro l hl
    refine ⟨fun hm => ncName_ne hl (d := '{') (by decide) _ hm rfl, fun hm => ncName_ne hl (d := '}') (by decide) _ hm rfl, ?_⟩
    rintro rfl; simp [NCName] at hl
  cases h with
  | two hu hl =>
    cases l with
    | nil => exact absurd rfl (hfree hl).2.2
    | cons c l => exact ⟨rfl, rfl, rfl⟩
  | one hu hl =>
    refine ⟨?_, (C99_local _ _).2 ⟨(hfree hl).2.1, .inr ⟨'{' :: u, by simp⟩⟩, rfl⟩
    show qnGetNs _ = u
    rcases C99_namespace ('{' :: u ++ '}' :: l) with ⟨pre, post, ⟨h1, h2, h3⟩, h4⟩ | ⟨h1, _⟩
    · have h5 := h4 [] u l ⟨rfl, hu.1, hu.2.2.2⟩
      have hp : pre = [] := by
        cases pre with
        | nil => rfl
        | cons _ _ => simp at h5
      subst hp
      have h6 : u ++ '}' :: l = qnGetNs ('{' :: u ++ '}' :: l) ++ '}' :: post := (List.cons.inj h1).2
      have h7 := brace_before (hfree hl).2.1 h6
      have h8 : u.length ≤ (qnGetNs ('{' :: u ++ '}' :: l)).length := by simpa using h5
      exact (List.append_inj h6 (Nat.le_antisymm h8 h7)).1.symm
    · exact absurd ⟨rfl, hu.1, hu.2.2.2⟩ (h1 [] u l)
  | bare hl =>
    refine ⟨?_, (C99_local _ _).2 ⟨(hfree hl).2.1, .inl rfl⟩, rfl⟩
    show qnGetNs _ = []
    rcases C99_namespace input with ⟨pre, post, ⟨h1, _⟩, _⟩ | ⟨_, h⟩
    · exact absurd (h1 ▸ List.mem_append_right _ (List.mem_cons_self ..)) (hfree hl).1
    · exact h

/-- C99: names are equal exactly if they have the same namespace and local name, however they were made
and whatever their prefixes; `!=` is the opposite. -/
theorem C99_equal {i₁ i₂ : Chars} {t₁ t₂ : Option Chars} {u₁ u₂ l₁ l₂ : Chars} (h₁ : Names i₁ t₁ u₁ l₁) (h₂ : Names i₂ t₂ u₂ l₂)
    (p₁ p₂ : Option Chars) (left : Bool) :
    ∃ b, (qnCreate i₁ t₁ p₁).compare (.name (qnCreate i₂ t₂ p₂)) left = .ok b ∧
      (qnCreate i₁ t₁ p₁).differs (.name (qnCreate i₂ t₂ p₂)) left = .ok (!b) ∧ (b = true ↔ u₁ = u₂ ∧ l₁ = l₂) := by
  obtain ⟨a₁, a₂, -⟩ := C99_parts h₁ p₁
  obtain ⟨b₁, b₂, -⟩ := C99_parts h₂ p₂
  cases left
  · refine ⟨decide ((u₂, l₂) = (u₁, l₁)), ?_, ?_, ?_⟩
    · simp only [QualName.compare, QualName.eqMethod, a₁, a₂, b₁, b₂]
    · simp only [QualName.differs, QualName.neMethod, QualName.eqMethod, a₁, a₂, b₁, b₂]
    · simp only [decide_eq_true_eq, Prod.mk.injEq]
      exact ⟨fun ⟨x, y⟩ => ⟨x.symm, y.symm⟩, fun ⟨x, y⟩ => ⟨x.symm, y.symm⟩⟩
  · refine ⟨decide ((u₁, l₁) = (u₂, l₂)), ?_, ?_, ?_⟩
    · simp only [QualName.compare, QualName.eqMethod, a₁, a₂, b₁, b₂]
    · simp only [QualName.differs, QualName.neMethod, QualName.eqMethod, a₁, a₂, b₁, b₂]
    · simp only [decide_eq_true_eq, Prod.mk.injEq]

/-- C99: the text that stands for a name in documents is the same exactly for equal names, and the order of names agrees
with equality, as long as the properties are not assigned to. -/
theorem C99_text_partial {i₁ i₂ : Chars} {t₁ t₂ : Option Chars} {u₁ u₂ l₁ l₂ : Chars} (h₁ : Names i₁ t₁ u₁ l₁) (h₂ : Names i₂ t₂ u₂ l₂)
    (p₁ p₂ : Option Chars) :
    (qnCreate i₁ t₁ p₁).str = (if u₁ = [] then l₁ else '{' :: u₁ ++ '}' :: l₁) ∧
    ((qnCreate i₁ t₁ p₁).str = (qnCreate i₂ t₂ p₂).str ↔ u₁ = u₂ ∧ l₁ = l₂) ∧
    ((qnCreate i₁ t₁ p₁).le (.name (qnCreate i₂ t₂ p₂)) = .ok true ∧ (qnCreate i₂ t₂ p₂).le (.name (qnCreate i₁ t₁ p₁)) = .ok true ↔
      u₁ = u₂ ∧ l₁ = l₂) := by
  have hstr : ∀ {i t u l} (h : Names i t u l) (p : Option Chars),
      (qnCreate i t p).str = (if u = [] then l else '{' :: u ++ '}' :: l) ∧ NCName l := by
    intro i t u l h p
    cases h with
    | two hu hl =>
      rw [if_neg hu.1]
      cases l with
      | nil => simp [NCName] at hl
      | cons c l => exact ⟨rfl, hl⟩
    | one hu hl => rw [if_neg hu.1]; exact ⟨rfl, hl⟩
    | bare hl => exact ⟨rfl, hl⟩
  obtain ⟨a₁, a₂⟩ := hstr h₁ p₁
  obtain ⟨b₁, b₂⟩ := hstr h₂ p₂
  have hiff : (qnCreate i₁ t₁ p₁).str = (qnCreate i₂ t₂ p₂).str ↔ u₁ = u₂ ∧ l₁ = l₂ := by
    rw [a₁, b₁]
    constructor
    · intro h
      by_cases hu₁ : u₁ = [] <;> by_cases hu₂ : u₂ = []
      · rw [if_pos hu₁, if_pos hu₂] at h
        exact ⟨by rw [hu₁, hu₂], h⟩
      · rw [if_pos hu₁, if_neg hu₂] at h
        exact absurd rfl (ncName_ne a₂ (d := '{') (by decide) '{' (h ▸ List.mem_cons_self ..))
      · rw [if_neg hu₁, if_pos hu₂] at h
        exact absurd rfl (ncName_ne b₂ (d := '{') (by decide) '{' (h ▸ List.mem_cons_self ..))
      · rw [if_neg hu₁, if_neg hu₂] at h
        exact clark_inj a₂ b₂ h
    · rintro ⟨rfl, rfl⟩; rfl
  refine ⟨a₁, hiff, ?_⟩
  rw [← hiff]
  simp only [QualName.le, Except.ok.injEq, decide_eq_true_eq, QualName.str]
  constructor
  · rintro ⟨h, h'⟩; exact List.le_antisymm h h'
  · intro h; rw [h]; exact ⟨List.le_refl _, List.le_refl _⟩

/-! ## Histories -/

theorem applyAll_parts (q : QualName) (ops : List QualNameOp) :
    (q.applyAll ops).ns = lastGiven pickNamespace q.ns ops ∧ (q.applyAll ops).loc = lastGiven pickLocal q.loc ops ∧
      (q.applyAll ops).text = q.text := by
  induction ops generalizing q with
  | nil => exact ⟨rfl, rfl, rfl⟩
  | cons op ops ih =>
    have h := ih (q.apply op)
    have hl : ∀ (l : List Chars) (a b : Chars), (a :: l).getLast?.getD b = l.getLast?.getD a := by
      intro l a b
      cases l with
      | nil => rfl
      | cons c l => rw [List.getLast?_cons_cons, List.getLast?_cons]; rfl
    cases op with
    | setNamespaceURI u =>
      refine ⟨?_, h.2.1, h.2.2⟩
      rw [lastGiven, List.filterMap_cons_some (f := pickNamespace) (b := u) rfl, hl]
      exact h.1
    | setLocalPart l =>
      refine ⟨h.1, ?_, h.2.2⟩
      rw [lastGiven, List.filterMap_cons_some (f := pickLocal) (b := l) rfl, hl]
      exact h.2.1
    | setPrefix p => exact h

/-- C99: after any assignments names are equal exactly if the namespaces and local names they were given last are;
the text stays that of the beginning. -/
theorem C99_history (q r : QualName) (ops₁ ops₂ : List QualNameOp) :
    (q.applyAll ops₁).compare (.name (r.applyAll ops₂)) true = .ok (decide
      (lastGiven pickNamespace q.ns ops₁ = lastGiven pickNamespace r.ns ops₂ ∧
        lastGiven pickLocal q.loc ops₁ = lastGiven pickLocal r.loc ops₂)) ∧
    (q.applyAll ops₁).str = q.str := by
  obtain ⟨a₁, a₂, a₃⟩ := applyAll_parts q ops₁
  obtain ⟨b₁, b₂, -⟩ := applyAll_parts r ops₂
  refine ⟨?_, a₃⟩
  simp only [QualName.compare, QualName.eqMethod, a₁, a₂, b₁, b₂, Prod.mk.injEq]

/-- C99: equality is reflexive, symmetric and transitive for all names whatsoever. -/
theorem C99_equivalence (q r s : QualName) (left : Bool) :
    q.compare (.name q) left = .ok true ∧ q.compare (.name r) true = r.compare (.name q) left ∧
      (q.compare (.name r) true = .ok true → r.compare (.name s) true = .ok true → q.compare (.name s) left = .ok true) := by
  cases left <;> simp only [QualName.compare, QualName.eqMethod, Except.ok.injEq, decide_eq_true_eq, Prod.mk.injEq]
  · exact ⟨trivial, trivial, fun h h' => ⟨(h.1.trans h'.1).symm, (h.2.trans h'.2).symm⟩⟩
  · refine ⟨trivial, ?_, fun h h' => ⟨h.1.trans h'.1, h.2.trans h'.2⟩⟩
    rw [decide_eq_decide]
    exact ⟨fun h => ⟨h.1.symm, h.2.symm⟩, fun h => ⟨h.1.symm, h.2.symm⟩⟩

/-- C99: comparing a name with anything else is an error, on either side; also with names of the XML library and with
strings. -/
theorem C99_operands (q : QualName) (x : QualOperand) (left : Bool) (h : ∀ r, x ≠ .name r) :
    q.compare x left = .error .typeError ∧ q.differs x left = .error .typeError := by
  cases x with
  | name r => exact absurd rfl (h r)
  | library t => cases left <;> exact ⟨rfl, rfl⟩
  | str t => cases left <;> exact ⟨rfl, rfl⟩
  | other => cases left <;> exact ⟨rfl, rfl⟩

/-! ## Violations -/

/-- C99 does not hold after assignments: whenever the local name is set to another one, the name equals the name it has
become but is still written as before. -/
theorem C99_violated_text {input : Chars} {tag : Option Chars} {u l : Chars} (h : Names input tag u l) (l' : Chars)
    (hl' : NCName l') (hne : l' ≠ l) (hu : u ≠ []) :
    ∃ q r : QualName, q = (qnCreate input tag none).apply (.setLocalPart l') ∧ r = qnCreate u (some l') none ∧
      q.compare (.name r) true = .ok true ∧ q.str ≠ r.str := by
  refine ⟨_, _, rfl, rfl, ?_, ?_⟩
  · cases l' with
    | nil => simp [NCName] at hl'
    | cons c l' =>
      have h1 := (C99_parts h none).1
      simp only [QualName.compare, QualName.eqMethod, QualName.apply, h1]
      simp [qnCreate]
  · have h1 := (C99_text_partial h h none none).1
    rw [if_neg hu] at h1
    show (qnCreate input tag none).str ≠ _
    rw [h1]
    cases l' with
    | nil => simp [NCName] at hl'
    | cons c l' =>
      intro h2
      have hl : NCName l := by cases h <;> assumption
      exact hne (clark_inj hl hl' h2).2.symm

/-- C99: names cannot be used as keys of dictionaries or put into sets, although those of the XML library can. -/
theorem C99_violated_hash (q : QualName) : q.hash = .error .typeError := rfl

/-- Without the condition on the text, texts that are no names pass for names: `x{u}y` equals `{u}y`, and a newline in the
namespace makes it vanish. -/
theorem C99_form_needed :
    (qnCreate ['x', '{', 'u', '}', 'y'] none none).compare (.name (qnCreate ['u'] (some ['y']) none)) true = .ok true ∧
    (qnCreate ['{', 'u', '\n', '}', 'y'] none none).compare (.name (qnCreate ['y'] none none)) true = .ok true := by
  constructor <;> rfl

/-! ## Non-vacuity -/

private theorem ncY : NCName ['y'] := ⟨by decide, by decide⟩
private theorem ncZ : NCName ['z'] := ⟨by decide, by decide⟩
private theorem uOk : ['u'] ≠ [] ∧ '{' ∉ ['u'] ∧ '}' ∉ ['u'] ∧ '\n' ∉ ['u'] := by decide

/-- Three ways to make names; the first two make the same one. -/
example : Names ['u'] (some ['y']) ['u'] ['y'] ∧ Names ['{', 'u', '}', 'y'] none ['u'] ['y'] ∧ Names ['y'] none [] ['y'] :=
  ⟨.two uOk ncY, .one uOk ncY, .bare ncY⟩

example : (qnCreate ['{', 'u', '}', 'y'] none (some ['p'])).compare (.name (qnCreate ['u'] (some ['y']) none)) true = .ok true := rfl
example : (qnCreate ['y'] none none).compare (.name (qnCreate ['u'] (some ['y']) none)) true = .ok false := rfl

example : ∃ q r : QualName, q = (qnCreate ['u'] (some ['y']) none).apply (.setLocalPart ['z']) ∧ r = qnCreate ['u'] (some ['z']) none ∧
    q.compare (.name r) true = .ok true ∧ q.str ≠ r.str := C99_violated_text (.two uOk ncY) _ ncZ (by decide) (by decide)

example : FirstMatch ['{', 'u', '}', 'y'] ['u'] := by
  rcases C99_namespace ['{', 'u', '}', 'y'] with h | h
  · exact h
  · exact absurd h.2 (by decide)

example : localPart "{urn:a}Rule" = "Rule" := (C46_local _ _).2 ⟨by decide, .inr ⟨"{urn:a".toList, by decide⟩⟩

end Xacml
