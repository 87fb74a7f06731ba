import Verif.Lemmas.XmlText

/-!
# Lemmas about the pretty printer
-/
namespace Xacml
open Spec

/-! ## Stripping -/

private theorem blank_space {c : Char} (h : c = ' ' ∨ c = '\t' ∨ c = '\n') : isPySpace c = true := by
  rcases h with rfl | rfl | rfl <;> decide

theorem dropWhile_all {P : Char → Bool} {w : Chars} (h : ∀ c ∈ w, P c = true) (x : Chars) :
    (w ++ x).dropWhile P = x.dropWhile P := by
  induction w with
  | nil => rfl
  | cons c w ih =>
    rw [List.cons_append, List.dropWhile_cons, if_pos (h c (List.mem_cons_self ..)),
      ih fun c hc => h c (List.mem_cons_of_mem _ hc)]

theorem strip_blank_left {w : Chars} (h : Blank w) (x : Chars) : stripChars (w ++ x) = stripChars x := by
  rw [stripChars, dropWhile_all fun c hc => blank_space (h c hc)]; rfl

theorem strip_blank_right {w : Chars} (h : Blank w) (x : Chars) : stripChars (x ++ w) = stripChars x := by
  have hw : ∀ c ∈ w, isPySpace c = true := fun c hc => blank_space (h c hc)
  have hr : ∀ c ∈ w.reverse, isPySpace c = true := fun c hc => hw c (List.mem_reverse.1 hc)
  simp only [stripChars]
  congr 1
  induction x with
  | nil =>
    have h1 := dropWhile_all hw []
    simp only [List.append_nil, List.dropWhile_nil] at h1
    simp [h1]
  | cons c x ih =>
    rw [List.cons_append, List.dropWhile_cons, List.dropWhile_cons]
    split
    · exact ih
    · rw [← List.cons_append, List.reverse_append, dropWhile_all hr]

theorem strip_blank {w : Chars} (h : Blank w) : stripChars w = [] := by
  have := strip_blank_left h []
  simpa [stripChars] using this

private theorem dropWhile_id {P : Char → Bool} {a b : Chars} (ha : ∀ c, a.head? = some c → P c = false) (h : b <+: a) :
    b.dropWhile P = b := by
  cases b with
  | nil => rfl
  | cons c b =>
    obtain ⟨t, rfl⟩ := h
    rw [List.dropWhile_cons, ha c rfl]; rfl

private theorem head_dropWhile {P : Char → Bool} (x : Chars) : ∀ c, (x.dropWhile P).head? = some c → P c = false := by
  intro c hc
  have := List.head?_dropWhile_not P x
  rw [hc] at this
  simpa using this

theorem strip_strip (x : Chars) : stripChars (stripChars x) = stripChars x := by
  have hpre : stripChars x <+: x.dropWhile isPySpace := by
    rw [stripChars, ← List.reverse_suffix, List.reverse_reverse]
    exact List.dropWhile_suffix _
  have h1 : (stripChars x).dropWhile isPySpace = stripChars x := dropWhile_id (head_dropWhile x) hpre
  conv => lhs; rw [stripChars, h1]
  have h2 : (stripChars x).reverse = (x.dropWhile isPySpace).reverse.dropWhile isPySpace := by
    rw [stripChars, List.reverse_reverse]
  rw [h2, dropWhile_id (head_dropWhile _) (List.prefix_refl _), ← h2, List.reverse_reverse]

theorem strip_infix (x : Chars) : stripChars x <:+: x := by
  have hpre : stripChars x <+: x.dropWhile isPySpace := by
    rw [stripChars, ← List.reverse_suffix, List.reverse_reverse]
    exact List.dropWhile_suffix _
  exact List.IsInfix.trans hpre.isInfix (List.dropWhile_suffix _).isInfix

theorem charData_infix {x y : Chars} (h : x <:+: y) (hy : CharData y) : CharData x := by
  refine ⟨?_, fun hc => hy.2 (hc.trans h)⟩
  rw [List.all_eq_true]
  exact fun c hc => List.all_eq_true.1 hy.1 c (h.subset hc)

theorem charData_estrip {t : Option Chars} (h : PlainText t) : CharData (estrip t) := by
  cases t with
  | none => exact ⟨rfl, by decide⟩
  | some s => exact charData_infix (strip_infix s) (h s rfl)

private theorem blank_plain {w : Chars} (h : Blank w) : w.all plainChar = true := by
  rw [List.all_eq_true]
  intro c hc
  rcases h c hc with rfl | rfl | rfl <;> decide

/-- `]]>` does not contain white space. -/
private theorem cdEnd_split {a b : Chars} {w : Chars} (hw : Blank w) (hne : w ≠ []) (h : [']', ']', '>'] <:+: a ++ w ++ b) :
    [']', ']', '>'] <:+: a ∨ [']', ']', '>'] <:+: b := by
  obtain ⟨s, t, h⟩ := h
  have hns : ∀ c ∈ w, c ≠ ']' ∧ c ≠ '>' := by
    intro c hc; rcases hw c hc with rfl | rfl | rfl <;> decide
  -- compare `s` with `a`
  have key : ∀ (a s : Chars), s ++ [']', ']', '>'] ++ t = a ++ w ++ b →
      [']', ']', '>'] <:+: a ∨ [']', ']', '>'] <:+: b := by
    intro a
    induction a with
    | nil =>
      intro s h
      refine .inr ?_
      clear hw
      simp only [List.nil_append] at h
      have : ∀ (w s : Chars), (∀ c ∈ w, c ≠ ']' ∧ c ≠ '>') → s ++ [']', ']', '>'] ++ t = w ++ b → [']', ']', '>'] <:+: b := by
        intro w
        induction w with
        | nil => intro s _ h; exact ⟨s, t, h⟩
        | cons c w ih =>
          intro s hns h
          cases s with
          | nil =>
            simp only [List.nil_append, List.cons_append, List.cons.injEq] at h
            exact absurd h.1.symm (hns c (List.mem_cons_self ..)).1
          | cons d s =>
            simp only [List.cons_append, List.cons.injEq] at h
            exact ih s (fun c hc => hns c (List.mem_cons_of_mem _ hc)) h.2
      exact this w s hns h
    | cons c a ih =>
      intro s h
      cases s with
      | cons d s =>
        simp only [List.cons_append, List.cons.injEq] at h
        rcases ih s h.2 with h' | h'
        · exact .inl (h'.trans (List.suffix_cons c a).isInfix)
        · exact .inr h'
      | nil =>
        obtain ⟨x, w', rfl⟩ := List.exists_cons_of_ne_nil hne
        have hx := hns x (List.mem_cons_self ..)
        simp only [List.nil_append, List.cons_append, List.cons.injEq] at h
        obtain ⟨rfl, h⟩ := h
        cases a with
        | nil => simp only [List.nil_append, List.cons_append, List.cons.injEq] at h; exact absurd h.1.symm hx.1
        | cons c a =>
          simp only [List.cons_append, List.cons.injEq] at h
          obtain ⟨rfl, h⟩ := h
          cases a with
          | nil => simp only [List.nil_append, List.cons_append, List.cons.injEq] at h; exact absurd h.1.symm hx.2
          | cons c a =>
            simp only [List.cons_append, List.cons.injEq] at h
            obtain ⟨rfl, -⟩ := h
            exact .inl ⟨[], a, rfl⟩
  exact key a s h

theorem charData_mid {a w b : Chars} (ha : CharData a) (hw : Blank w) (hne : w ≠ []) (hb : CharData b) :
    CharData (a ++ w ++ b) := by
  refine ⟨?_, fun h => (cdEnd_split hw hne h).elim ha.2 hb.2⟩
  rw [List.all_append, List.all_append, ha.1, blank_plain hw, hb.1]; rfl

theorem charData_nil : CharData [] := ⟨rfl, by decide⟩

theorem blank_cons {w : Chars} (h : Blank w) : Blank ('\n' :: w) := by
  intro c hc
  rcases List.mem_cons.1 hc with rfl | hc
  · exact .inr (.inr rfl)
  · exact h c hc

theorem blank_append {a b : Chars} (ha : Blank a) (hb : Blank b) : Blank (a ++ b) := by
  intro c hc
  rcases List.mem_append.1 hc with hc | hc
  · exact ha c hc
  · exact hb c hc

/-! ## Names -/

theorem ncName_mem {n : Chars} (h : NCName n) {c : Char} (hc : c ∈ n) : nameChar c = true := List.all_eq_true.1 h.2 c hc

theorem ncName_ne {n : Chars} (h : NCName n) {d : Char} (hd : nameChar d = false) : ∀ c ∈ n, c ≠ d := by
  rintro c hc rfl
  rw [ncName_mem h hc] at hd; cases hd

private theorem takeWhile_all {P : Char → Bool} {a b : Chars} (ha : ∀ c ∈ a, P c = true) (hb : ∀ c, b.head? = some c → P c = false) :
    (a ++ b).takeWhile P = a := by
  induction a with
  | nil =>
    cases b with
    | nil => rfl
    | cons c b => rw [List.nil_append, List.takeWhile_cons, hb c rfl]; rfl
  | cons c a ih =>
    rw [List.cons_append, List.takeWhile_cons, ha c (List.mem_cons_self ..)]
    simp [ih fun c hc => ha c (List.mem_cons_of_mem _ hc)]

theorem qnLocalPart_clark {u l : Chars} (hl : NCName l) : qnLocalPart (clark u l) = l := by
  have h := ncName_ne hl (d := '}') (by decide)
  rw [qnLocalPart, clark]
  have : ('{' :: u ++ '}' :: l).reverse = l.reverse ++ '}' :: ('{' :: u).reverse := by simp
  rw [this, takeWhile_all, List.reverse_reverse]
  · intro c hc; simpa using h c (List.mem_reverse.1 hc)
  · intro c hc; cases hc; decide

theorem attValue_mem {v : Chars} (h : AttValue v) {c : Char} (hc : c ∈ v) : c ≠ '\n' := by
  have := List.all_eq_true.1 h c hc
  simp only [Bool.and_eq_true, bne_iff_ne, ne_eq] at this
  exact this.2

theorem qnGetNs_clark {u l : Chars} (hu : NamespaceOk u) (hl : NCName l) : qnGetNs (clark u l) = u := by
  have h1 := ncName_ne hl (d := '}') (by decide)
  have h2 := ncName_ne hl (d := '\n') (by decide)
  rw [clark, List.cons_append, qnGetNs, if_pos rfl]
  have hafter : nsAfterBrace (u ++ '}' :: l) = some u := by
    rw [nsAfterBrace]
    have ht : (u ++ '}' :: l).takeWhile (· != '\n') = u ++ '}' :: l := by
      have := takeWhile_all (P := (· != '\n')) (a := u ++ '}' :: l) (b := []) (by
        intro c hc
        rcases List.mem_append.1 hc with hc | hc
        · simpa using attValue_mem hu.2.1 hc
        · rcases List.mem_cons.1 hc with rfl | hc
          · decide
          · simpa using h2 c hc) (by simp)
      simpa using this
    have hd : (u ++ '}' :: l).reverse.dropWhile (· != '}') = '}' :: u.reverse := by
      have : (u ++ '}' :: l).reverse = l.reverse ++ '}' :: u.reverse := by simp
      rw [this, dropWhile_all]
      · rfl
      · intro c hc; simpa using h1 c (List.mem_reverse.1 hc)
    rw [ht, hd]
    simp only [List.drop_succ_cons, List.drop_zero, List.reverse_reverse]
    cases u with
    | nil => exact absurd rfl hu.1
    | cons c u => rfl
  rw [hafter]

theorem qnGetNs_none {l : Chars} (hl : NCName l) : qnGetNs l = [] := by
  have h := ncName_ne hl (d := '{') (by decide)
  clear hl
  induction l with
  | nil => rfl
  | cons c l ih =>
    rw [qnGetNs, if_neg (h c (List.mem_cons_self ..)), ih fun c hc => h c (List.mem_cons_of_mem _ hc)]

theorem clark_inj {u l u' l' : Chars} (hl : NCName l) (hl' : NCName l') (h : clark u l = clark u' l') : u = u' ∧ l = l' := by
  have hloc : l = l' := by rw [← qnLocalPart_clark (u := u) hl, h, qnLocalPart_clark hl']
  subst hloc
  simp only [clark, List.cons_append, List.cons.injEq, true_and] at h
  exact ⟨List.append_cancel_right h, rfl⟩

/-! ## Allocating prefixes -/

theorem nsName_ok : ∀ i < 256, NCName (nsName i) ∧ nsName i ≠ xmlnsName := by
  have : ∀ i < 256, ((nsName i).head?.any nameStartChar && (nsName i).all nameChar && nsName i != xmlnsName) = true := by
    decide +kernel
  intro i hi
  have := this i hi
  simp only [Bool.and_eq_true, bne_iff_ne] at this
  exact ⟨this.1, this.2⟩

/-- The map stays good, and its prefixes are known to be taken. -/
structure PInv (s : PrintState) : Prop where
  good : GoodMap s.nsMap
  taken : ∀ x ∈ s.nsMap, x.2 ∈ s.mapped

theorem map_key {m : List (Chars × Chars)} (h : (m.map Prod.fst).Nodup) {u p p' : Chars} (h1 : (u, p) ∈ m) (h2 : (u, p') ∈ m) :
    p = p' := by
  induction m with
  | nil => cases h1
  | cons x m ih =>
    rw [List.map_cons, List.nodup_cons] at h
    rcases List.mem_cons.1 h1 with e1 | h1
    · rcases List.mem_cons.1 h2 with e2 | h2
      · rw [← e1] at e2; exact (Prod.ext_iff.1 e2).2.symm
      · exact absurd (List.mem_map.2 ⟨_, h2, by rw [← e1]⟩) h.1
    · rcases List.mem_cons.1 h2 with e2 | h2
      · exact absurd (List.mem_map.2 ⟨_, h1, by rw [← e2]⟩) h.1
      · exact ih h.2 h1 h2

theorem map_prefix {m : List (Chars × Chars)} (h : (m.map Prod.snd).Nodup) {u u' p : Chars} (h1 : (u, p) ∈ m) (h2 : (u', p) ∈ m) :
    u = u' := by
  induction m with
  | nil => cases h1
  | cons x m ih =>
    rw [List.map_cons, List.nodup_cons] at h
    rcases List.mem_cons.1 h1 with e1 | h1
    · rcases List.mem_cons.1 h2 with e2 | h2
      · rw [← e1] at e2; exact (Prod.ext_iff.1 e2).1.symm
      · exact absurd (List.mem_map.2 ⟨_, h2, by rw [← e1]⟩) h.1
    · rcases List.mem_cons.1 h2 with e2 | h2
      · exact absurd (List.mem_map.2 ⟨_, h1, by rw [← e2]⟩) h.1
      · exact ih h.2 h1 h2

theorem lookup_mem {m : List (Chars × Chars)} {u p : Chars} (h : m.lookup u = some p) : (u, p) ∈ m := by
  induction m with
  | nil => cases h
  | cons x m ih =>
    rcases x with ⟨u', p'⟩
    rw [List.lookup_cons] at h
    split at h
    · next heq =>
      rw [beq_iff_eq] at heq
      cases h; rw [heq]; exact List.mem_cons_self ..
    · exact List.mem_cons_of_mem _ (ih h)

theorem lookup_none {m : List (Chars × Chars)} {u : Chars} (h : m.lookup u = none) : u ∉ m.map Prod.fst := by
  induction m with
  | nil => simp
  | cons x m ih =>
    rcases x with ⟨u', p'⟩
    rw [List.lookup_cons] at h
    split at h
    · cases h
    · next heq =>
      have : u ≠ u' := by simpa using heq
      rw [List.map_cons, List.mem_cons, not_or]
      exact ⟨this, ih h⟩

theorem alloc_ok {u : Chars} {s s' : PrintState} {p : Chars} (hs : PInv s) (h : allocNsPrefix u s = .ok p s') :
    PInv s' ∧ s.nsMap ⊆ s'.nsMap ∧ (u, p) ∈ s'.nsMap := by
  simp only [allocNsPrefix, bind, EStateM.bind, get, getThe, MonadStateOf.get, EStateM.get] at h
  cases hg : nsGet s.nsMap u with
  | some q =>
    rw [hg] at h
    cases h
    exact ⟨hs, fun _ h => h, lookup_mem hg⟩
  | none =>
    rw [hg] at h
    simp only at h
    cases hf : ((List.range 256).map nsName).find? (fun p => !s.mapped.contains p) with
    | none => rw [hf] at h; cases h
    | some q =>
      rw [hf] at h
      simp only [set, MonadStateOf.set, EStateM.set, pure, EStateM.pure] at h
      cases h
      have hq := List.find?_some hf
      have hmem := List.mem_of_find?_eq_some hf
      obtain ⟨i, hi, rfl⟩ := List.mem_map.1 hmem
      have hok := nsName_ok i (List.mem_range.1 hi)
      have hnew : nsName i ∉ s.mapped := by simpa using hq
      have hnk := lookup_none hg
      refine ⟨⟨⟨?_, ?_, ?_, ?_⟩, ?_⟩, fun x hx => List.mem_append_left _ hx, List.mem_append_right _ (List.mem_singleton.2 rfl)⟩
      · rw [List.map_append, List.nodup_append]
        refine ⟨hs.good.keys, by simp, ?_⟩
        intro a ha b hb
        simp only [List.map_cons, List.map_nil, List.mem_singleton] at hb
        rintro rfl
        exact hnk (hb ▸ ha)
      · rw [List.map_append, List.nodup_append]
        refine ⟨hs.good.prefixes, by simp, ?_⟩
        intro a ha b hb
        simp only [List.map_cons, List.map_nil, List.mem_singleton] at hb
        rintro rfl
        obtain ⟨x, hx, he⟩ := List.mem_map.1 ha
        exact hnew (by rw [← hb, ← he]; exact hs.taken x hx)
      · intro x hx
        rcases List.mem_append.1 hx with hx | hx
        · exact hs.good.ok x hx
        · rw [List.mem_singleton.1 hx]; exact hok
      · exact List.mem_append_left _ hs.good.xml
      · intro x hx
        rcases List.mem_append.1 hx with hx | hx
        · exact List.mem_append_left _ (hs.taken x hx)
        · rw [List.mem_singleton.1 hx]; exact List.mem_append_right _ (List.mem_singleton.2 rfl)

theorem pbind_ok {α β : Type} {x : PrintM α} {f : α → PrintM β} {s s' : PrintState} {b : β} :
    (x >>= f) s = .ok b s' ↔ ∃ a s1, x s = .ok a s1 ∧ f a s1 = .ok b s' := by
  simp only [bind, EStateM.bind]
  cases h : x s with
  | ok a s1 =>
    constructor
    · intro h'; exact ⟨a, s1, rfl, h'⟩
    · rintro ⟨a', s1', h1, h2⟩; cases h1; exact h2
  | error e s1 =>
    constructor
    · intro h'; cases h'
    · rintro ⟨a', s1', h1, -⟩; cases h1

theorem ppure_ok {α : Type} {a b : α} {s s' : PrintState} : (pure a : PrintM α) s = .ok b s' ↔ a = b ∧ s = s' := by
  simp only [pure, EStateM.pure]
  constructor
  · intro h; cases h; exact ⟨rfl, rfl⟩
  · rintro ⟨rfl, rfl⟩; rfl

/-! ## Attributes -/

/-- How the key of an attribute is written. -/
def KeyQN (m : List (Chars × Chars)) (d : List Chars) (key : Chars) (q : QN) : Prop :=
  (∃ u l p, key = clark u l ∧ q = ⟨some p, l⟩ ∧ (u, p) ∈ m ∧ u ∈ d ∧ NCName l ∧ NamespaceOk u) ∨
  (q = ⟨none, key⟩ ∧ NCName key ∧ key ≠ xmlnsName)

/-- A declaration that is written. -/
def DeclQN (m : List (Chars × Chars)) (d d' : List Chars) (x : QN × Chars) : Prop :=
  ∃ p u, x = (⟨some xmlnsName, p⟩, u) ∧ (u, p) ∈ m ∧ u ∉ d ∧ u ∈ d' ∧ NamespaceOk u

theorem KeyQN.mono {m m' : List (Chars × Chars)} {d d' : List Chars} {k : Chars} {q : QN} (h : KeyQN m d k q) (hm : m ⊆ m')
    (hd : d ⊆ d') : KeyQN m' d' k q := by
  rcases h with ⟨u, l, p, h1, h2, h3, h4, h5⟩ | h
  · exact .inl ⟨u, l, p, h1, h2, hm h3, hd h4, h5⟩
  · exact .inr h

theorem KeyQN.inj {m : List (Chars × Chars)} {d : List Chars} (hm : GoodMap m) {k k' : Chars} {q : QN} (h : KeyQN m d k q)
    (h' : KeyQN m d k' q) : k = k' := by
  rcases h with ⟨u, l, p, rfl, rfl, h3, h4, h5⟩ | ⟨rfl, -⟩
  · rcases h' with ⟨u', l', p', rfl, h2', h3', -⟩ | ⟨h2', -⟩
    · injection h2' with hp hl
      injection hp with hp
      subst hl; subst hp
      rw [map_prefix hm.prefixes h3 h3']
    · injection h2' with hp hl; cases hp
  · rcases h' with ⟨u', l', p', rfl, h2', h3', -⟩ | ⟨h2', -⟩
    · injection h2' with hp hl; cases hp
    · injection h2'

theorem declares_key {m : List (Chars × Chars)} {d : List Chars} (hm : GoodMap m) {k : Chars} {q : QN} (h : KeyQN m d k q) :
    declares q = none := by
  rcases h with ⟨u, l, p, -, rfl, h3, -⟩ | ⟨rfl, -, h⟩
  · simp only [declares]; rw [if_neg (hm.ok _ h3).2]
  · simp only [declares]; rw [if_neg h]

theorem declares_decl (p : Chars) : declares ⟨some xmlnsName, p⟩ = some p := by simp [declares]

theorem mem_declare {d : List Chars} {u : Chars} : u ∈ declare d u := by
  rw [declare]; split
  · next h => simpa using h
  · simp

theorem sub_declare {d : List Chars} {u : Chars} : d ⊆ declare d u := by
  rw [declare]; split
  · exact fun _ h => h
  · exact fun _ h => List.mem_append_left _ h

theorem mem_of_declare {d : List Chars} {u v : Chars} (h : v ∈ declare d u) : v ∈ d ∨ v = u := by
  rw [declare] at h; split at h
  · exact .inl h
  · simpa using h

/-- What is written for one declaration. -/
def declAttr (d : List Chars) (p u : Chars) : List (QN × Chars) :=
  if d.contains u then [] else [(⟨some xmlnsName, p⟩, u)]

theorem declAttr_write (d : List Chars) (p u : Chars) : (declAttr d p u).flatMap writeAttr = nsDeclaration d p u := by
  rw [declAttr, nsDeclaration]
  split
  · rfl
  · simp [writeAttr, QN.write, printAttr, xmlnsName]

theorem mem_declAttr {d : List Chars} {p u : Chars} {x : QN × Chars} (h : x ∈ declAttr d p u) :
    x = (⟨some xmlnsName, p⟩, u) ∧ u ∉ d := by
  rw [declAttr] at h
  split at h
  · cases h
  · next hc => exact ⟨List.mem_singleton.1 h, by simpa using hc⟩

theorem attribs_ok : ∀ (as : List (Chars × Chars)) (d : List Chars) (s s' : PrintState) (str : Chars) (d' : List Chars),
    PInv s → (∀ a ∈ as, AttributeKey a.1 ∧ AttValue a.2) → (as.map Prod.fst).Nodup →
    printAttribs as d s = .ok (str, d') s' →
    PInv s' ∧ s.nsMap ⊆ s'.nsMap ∧ d ⊆ d' ∧ ∃ ras : List (QN × Chars), str = ras.flatMap writeAttr ∧
      (∀ x ∈ ras, DeclQN s'.nsMap d d' x ∨ ∃ a ∈ as, x.2 = a.2 ∧ KeyQN s'.nsMap d' a.1 x.1) ∧
      (ras.map Prod.fst).Nodup ∧
      (∀ u ∈ d', u ∈ d ∨ ∃ p, (p, u) ∈ declarations ras) ∧
      ∀ sc : Scope, (∀ u p, (u, p) ∈ s'.nsMap → u ∈ d' → sc.lookup p = some u) → attributes sc ras = some as := by
  intro as
  induction as with
  | nil =>
    intro d s s' str d' hs _ _ h
    obtain ⟨h1, rfl⟩ := ppure_ok.1 h
    cases h1
    exact ⟨hs, fun _ h => h, fun _ h => h, [], rfl, by simp, by simp, fun u hu => .inl hu, fun sc _ => rfl⟩
  | cons a as ih =>
    intro d s s' str d' hs has hnd h
    rcases a with ⟨k, v⟩
    rw [List.map_cons, List.nodup_cons] at hnd
    have ha := has (k, v) (List.mem_cons_self ..)
    have has' : ∀ a ∈ as, AttributeKey a.1 ∧ AttValue a.2 := fun a h => has a (List.mem_cons_of_mem _ h)
    rw [printAttribs] at h
    rcases ha.1 with ⟨u, l, rfl, hu, hl⟩ | ⟨hk, hkx⟩
    · simp only [qnGetNs_clark hu hl, if_neg hu.1, qnLocalPart_clark hl] at h
      obtain ⟨p, s1, h1, h⟩ := pbind_ok.1 h
      obtain ⟨⟨rest, d1⟩, s2, h2, h⟩ := pbind_ok.1 h
      obtain ⟨h3, rfl⟩ := ppure_ok.1 h
      injection h3 with h3 h4
      subst h3; subst h4
      obtain ⟨hs1, sub1, hp⟩ := alloc_ok hs h1
      obtain ⟨hs2, sub2, dsub, ras, rfl, hras, hrnd, hdec, hres⟩ := ih _ _ _ _ _ hs1 has' hnd.2 h2
      have hp' := sub2 hp
      have hud : u ∈ d1 := dsub mem_declare
      have hkq : KeyQN s2.nsMap d1 (clark u l) ⟨some p, l⟩ := .inl ⟨u, l, p, rfl, rfl, hp', hud, hl, hu⟩
      have hpx := (hs2.good.ok _ hp').2
      refine ⟨hs2, fun x hx => sub2 (sub1 hx), fun x hx => dsub (sub_declare hx),
        declAttr d p u ++ (⟨some p, l⟩, v) :: ras, ?_, ?_, ?_, ?_, ?_⟩
      · rw [List.flatMap_append, declAttr_write, List.flatMap_cons]
        simp [writeAttr, QN.write, printAttr, qualified]
      · intro x hx
        rcases List.mem_append.1 hx with hx | hx
        · obtain ⟨rfl, hnu⟩ := mem_declAttr hx
          exact .inl ⟨p, u, rfl, hp', hnu, hud, hu⟩
        · rcases List.mem_cons.1 hx with rfl | hx
          · exact .inr ⟨_, List.mem_cons_self .., rfl, hkq⟩
          · rcases hras x hx with ⟨p', u', rfl, h1, h2, h3⟩ | ⟨a, ha, h1, h2⟩
            · exact .inl ⟨p', u', rfl, h1, fun h => h2 (sub_declare h), h3⟩
            · exact .inr ⟨a, List.mem_cons_of_mem _ ha, h1, h2⟩
      · rw [List.map_append, List.map_cons, List.nodup_append, List.nodup_cons]
        refine ⟨?_, ⟨?_, hrnd⟩, ?_⟩
        · rw [declAttr]; split <;> simp
        · intro hmem
          obtain ⟨x, hx, hxe⟩ := List.mem_map.1 hmem
          rcases hras x hx with ⟨p', u', rfl, -⟩ | ⟨a, ha, -, h2⟩
          · simp only [QN.mk.injEq, Option.some.injEq] at hxe
            exact hpx hxe.1.symm
          · rw [hxe] at h2
            exact hnd.1 (List.mem_map.2 ⟨a, ha, (hkq.inj hs2.good h2).symm⟩)
        · intro q hq q' hq' he
          obtain ⟨x, hx, rfl⟩ := List.mem_map.1 hq
          obtain ⟨rfl, hnu⟩ := mem_declAttr hx
          subst he
          rcases List.mem_cons.1 hq' with hq' | hq'
          · simp only [QN.mk.injEq, Option.some.injEq] at hq'
            exact hpx hq'.1.symm
          · obtain ⟨x, hx, hxe⟩ := List.mem_map.1 hq'
            rcases hras x hx with ⟨p', u', rfl, hmem, hnot, -⟩ | ⟨a, ha, -, h2⟩
            · simp only [QN.mk.injEq, true_and] at hxe
              rw [hxe] at hmem
              rw [← map_prefix hs2.good.prefixes hp' hmem] at hnot
              exact hnot mem_declare
            · have := declares_key hs2.good h2
              rw [hxe, declares_decl] at this
              cases this
      · intro w hw
        rw [declarations, List.filterMap_append]
        rcases hdec w hw with h | ⟨q, hq⟩
        · rcases mem_of_declare h with h | rfl
          · exact .inl h
          · by_cases hwd : w ∈ d
            · exact .inl hwd
            · refine .inr ⟨p, List.mem_append_left _ ?_⟩
              simp [declAttr, hwd, declares_decl]
        · refine .inr ⟨q, List.mem_append_right _ ?_⟩
          rw [List.filterMap_cons]
          split
          · exact hq
          · exact List.mem_cons_of_mem _ hq
      · intro sc hsc
        have hrest := hres sc hsc
        have hd1 : attributes sc ((⟨some p, l⟩, v) :: ras) = some ((clark u l, v) :: as) := by
          rw [attributes, declares_key hs2.good hkq]
          simp [attributeName, hsc u p hp' hud, hrest]
        rw [declAttr]
        split
        · exact hd1
        · rw [List.singleton_append, attributes, declares_decl]; exact hd1
    · simp only [qnGetNs_none hk, if_true] at h
      obtain ⟨⟨rest, d1⟩, s2, h2, h⟩ := pbind_ok.1 h
      obtain ⟨h3, rfl⟩ := ppure_ok.1 h
      injection h3 with h3 h4
      subst h3; subst h4
      obtain ⟨hs2, sub2, dsub, ras, rfl, hras, hrnd, hdec, hres⟩ := ih _ _ _ _ _ hs has' hnd.2 h2
      have hkq : KeyQN s2.nsMap d1 k ⟨none, k⟩ := .inr ⟨rfl, hk, hkx⟩
      refine ⟨hs2, sub2, dsub, (⟨none, k⟩, v) :: ras, ?_, ?_, ?_, ?_, ?_⟩
      · rw [List.flatMap_cons]
        simp [writeAttr, QN.write, printAttr]
      · intro x hx
        rcases List.mem_cons.1 hx with rfl | hx
        · exact .inr ⟨_, List.mem_cons_self .., rfl, hkq⟩
        · rcases hras x hx with h | ⟨a, ha, h1, h2⟩
          · exact .inl h
          · exact .inr ⟨a, List.mem_cons_of_mem _ ha, h1, h2⟩
      · rw [List.map_cons, List.nodup_cons]
        refine ⟨?_, hrnd⟩
        intro hmem
        obtain ⟨x, hx, hxe⟩ := List.mem_map.1 hmem
        rcases hras x hx with ⟨p', u', rfl, -⟩ | ⟨a, ha, -, h2⟩
        · cases hxe
        · rw [hxe] at h2
          exact hnd.1 (List.mem_map.2 ⟨a, ha, (hkq.inj hs2.good h2).symm⟩)
      · intro w hw
        rcases hdec w hw with h | ⟨q, hq⟩
        · exact .inl h
        · refine .inr ⟨q, ?_⟩
          rw [declarations, List.filterMap_cons]
          split
          · exact hq
          · exact List.mem_cons_of_mem _ hq
      · intro sc hsc
        rw [attributes, declares_key hs2.good hkq]
        simp [attributeName, hres sc hsc]

/-! ## Elements -/

/-- The declared namespaces are in scope under the prefixes of the map. -/
def ScopeOK (m : List (Chars × Chars)) (d : List Chars) (sc : Scope) : Prop :=
  ∀ u ∈ d, ∃ p, (u, p) ∈ m ∧ sc.lookup p = some u

theorem ScopeOK.mono {m m' : List (Chars × Chars)} {d : List Chars} {sc : Scope} (h : ScopeOK m d sc) (hm : m ⊆ m') :
    ScopeOK m' d sc := fun u hu => let ⟨p, h1, h2⟩ := h u hu; ⟨p, hm h1, h2⟩

theorem scope_extend {m : List (Chars × Chars)} {decls sc : Scope} {d d' : List Chars} (hm : GoodMap m)
    (hdecl : ∀ x ∈ decls, (x.2, x.1) ∈ m) (hd : ∀ u ∈ d', u ∈ d ∨ ∃ p, (p, u) ∈ decls) (hsc : ScopeOK m d sc) :
    ∀ u p, (u, p) ∈ m → u ∈ d' → (decls ++ sc).lookup p = some u := by
  intro u p hup hu
  rw [List.lookup_append]
  cases hl : decls.lookup p with
  | some u' =>
    have := map_prefix hm.prefixes hup (hdecl _ (lookup_mem hl))
    rw [this]; rfl
  | none =>
    rcases hd u hu with h | ⟨q, hq⟩
    · obtain ⟨q, h1, h2⟩ := hsc u h
      rw [map_key hm.keys hup h1, h2]; rfl
    · have := map_key hm.keys hup (hdecl _ hq)
      simp only at this
      subst this
      exact absurd (List.mem_map.2 ⟨_, hq, rfl⟩) (lookup_none hl)

def PElem.setTail (e : PElem) (t : Option Chars) : PElem :=
  match e with
  | .mk tag a text _ cs => .mk tag a text t cs

theorem strippedAll_cons (c : PElem) (cs : List PElem) :
    strippedAll (c :: cs) = (stripped c).setTail (some (estrip c.tail)) :: strippedAll cs := by
  cases c; simp [strippedAll, stripped, PElem.setTail, PElem.tail]

theorem stripped_setTail (e : PElem) (t : Option Chars) : stripped (e.setTail t) = stripped e := by
  cases e; simp [stripped, PElem.setTail]

theorem tail_setTail (e : PElem) (t : Option Chars) : (e.setTail t).tail = t := by
  cases e; rfl

theorem resolve_tail {name : QN} {attrs : List (QN × Chars)} {text : Chars} {children : List Raw} {sc : Scope} {e : PElem}
    (h : (Raw.elem name attrs text children []).resolve sc = some e) (t : Chars) :
    (Raw.elem name attrs text children t).resolve sc = some (e.setTail (some t)) := by
  rw [Raw.resolve] at h ⊢
  split at h
  · next hd =>
    rw [if_pos hd]
    simp only [Option.bind_eq_bind, Option.bind_eq_some_iff] at h ⊢
    obtain ⟨tag, h1, as, h2, h⟩ := h
    refine ⟨tag, h1, as, h2, ?_⟩
    split at h
    · next hn =>
      rw [if_pos hn]
      obtain ⟨cs, h3, h⟩ := Option.bind_eq_some_iff.1 h
      refine Option.bind_eq_some_iff.2 ⟨cs, h3, ?_⟩
      cases h; rfl
    · cases h
  · cases h

theorem write_tail (name : QN) (attrs : List (QN × Chars)) (text : Chars) (children : List Raw) (t : Chars) :
    (Raw.elem name attrs text children t).write = (Raw.elem name attrs text children []).write ++ t := by
  simp [Raw.write]

theorem lexical_tail {name : QN} {attrs : List (QN × Chars)} {text : Chars} {children : List Raw}
    (h : (Raw.elem name attrs text children []).Lexical) {t : Chars} (ht : CharData t) :
    (Raw.elem name attrs text children t).Lexical := by
  simp only [Raw.Lexical] at h ⊢
  exact ⟨h.1, h.2.1, h.2.2.1, h.2.2.2.1, h.2.2.2.2.1, ht⟩

theorem blank_fourSpaces : Blank fourSpaces := by
  intro c hc; simp [fourSpaces] at hc; exact .inl hc

/-- The start tag: what is common to elements with and without children. -/
theorem start_ok {tag : Chars} {attrib : List (Chars × Chars)} {d d1 : List Chars} {s s1 s2 : PrintState} {sa p : Chars}
    (hs : PInv s) (htag : ElementTag tag) (has : ∀ a ∈ attrib, AttributeKey a.1 ∧ AttValue a.2)
    (hnd : (attrib.map Prod.fst).Nodup) (h1 : printAttribs attrib d s = .ok (sa, d1) s1)
    (h2 : allocNsPrefix (qnGetNs tag) s1 = .ok p s2) :
    PInv s2 ∧ s.nsMap ⊆ s2.nsMap ∧ ∃ attrs : List (QN × Chars),
      nsDeclaration d1 p (qnGetNs tag) ++ sa = attrs.flatMap writeAttr ∧
      (∀ a ∈ attrs, a.1.Lexical ∧ AttValue a.2) ∧ (attrs.map Prod.fst).Nodup ∧
      QN.Lexical ⟨some p, qnLocalPart tag⟩ ∧
      (declarations attrs).all (fun x => declarationOk x.1 x.2) = true ∧
      ∀ sc, ScopeOK s.nsMap d sc →
        ScopeOK s2.nsMap (declare d1 (qnGetNs tag)) (declarations attrs ++ sc) ∧
        elementName (declarations attrs ++ sc) ⟨some p, qnLocalPart tag⟩ = some tag ∧
        attributes (declarations attrs ++ sc) attrs = some attrib := by
  obtain ⟨u, l, rfl, hu, hl⟩ := htag
  rw [qnGetNs_clark hu hl] at h2 ⊢
  rw [qnLocalPart_clark hl]
  obtain ⟨hs1, sub1, dsub, ras, rfl, hras, hrnd, hdec, hres⟩ := attribs_ok _ _ _ _ _ _ hs has hnd h1
  obtain ⟨hs2, sub2, hup⟩ := alloc_ok hs1 h2
  have hg := hs2.good
  have hmem : ∀ x ∈ declAttr d1 p u ++ ras,
      (∃ q v, x = (⟨some xmlnsName, q⟩, v) ∧ (v, q) ∈ s2.nsMap ∧ NamespaceOk v) ∨
      ∃ a ∈ attrib, x.2 = a.2 ∧ KeyQN s2.nsMap d1 a.1 x.1 := by
    intro x hx
    rcases List.mem_append.1 hx with hx | hx
    · obtain ⟨rfl, -⟩ := mem_declAttr hx
      exact .inl ⟨p, u, rfl, hup, hu⟩
    · rcases hras x hx with ⟨q, v, rfl, hm, -, -, hv⟩ | ⟨a, ha, h3, h4⟩
      · exact .inl ⟨q, v, rfl, sub2 hm, hv⟩
      · exact .inr ⟨a, ha, h3, h4.mono sub2 fun _ h => h⟩
  have hxmlns : NCName xmlnsName := by constructor <;> decide
  have hdecls : ∀ x ∈ declarations (declAttr d1 p u ++ ras), (x.2, x.1) ∈ s2.nsMap ∧ NamespaceOk x.2 := by
    intro x hx
    simp only [declarations, List.mem_filterMap] at hx
    obtain ⟨y, hy, hyx⟩ := hx
    rcases hmem y hy with ⟨q, v, rfl, hm, hv⟩ | ⟨a, ha, -, h4⟩
    · rw [declares_decl] at hyx; cases hyx; exact ⟨hm, hv⟩
    · rw [declares_key hg h4] at hyx; cases hyx
  refine ⟨hs2, fun x hx => sub2 (sub1 hx), declAttr d1 p u ++ ras, ?_, ?_, ?_, ?_, ?_, ?_⟩
  · rw [List.flatMap_append, declAttr_write]
  · intro x hx
    rcases hmem x hx with ⟨q, v, rfl, hm, hv⟩ | ⟨a, ha, h3, h4⟩
    · exact ⟨⟨(hg.ok _ hm).1, fun q' hq' => by cases hq'; exact hxmlns⟩, hv.2.1⟩
    · refine ⟨?_, by rw [h3]; exact (has a ha).2⟩
      rcases h4 with ⟨u', l', p', -, he, hm, -, hl', -⟩ | ⟨he, hk, -⟩
      · rw [he]; exact ⟨hl', fun q' hq' => by cases hq'; exact (hg.ok _ hm).1⟩
      · rw [he]; exact ⟨hk, fun q' hq' => by cases hq'⟩
  · rw [List.map_append, List.nodup_append]
    refine ⟨?_, hrnd, ?_⟩
    · rw [declAttr]; split <;> simp
    · intro q hq q' hq' he
      obtain ⟨x, hx, rfl⟩ := List.mem_map.1 hq
      obtain ⟨rfl, hnu⟩ := mem_declAttr hx
      subst he
      obtain ⟨x, hx, hxe⟩ := List.mem_map.1 hq'
      rcases hras x hx with ⟨p', u', rfl, hm, -, hin, -⟩ | ⟨a, ha, -, h4⟩
      · simp only [QN.mk.injEq, true_and] at hxe
        rw [hxe] at hm
        rw [← map_prefix hg.prefixes hup (sub2 hm)] at hin
        exact hnu hin
      · have := declares_key hs1.good h4
        rw [hxe, declares_decl] at this
        cases this
  · exact ⟨hl, fun q' hq' => by cases hq'; exact (hg.ok _ hup).1⟩
  · rw [List.all_eq_true]
    intro x hx
    obtain ⟨hm, hv⟩ := hdecls x hx
    have h1 := (hg.ok _ hm).2
    have h2 : x.1 = xmlName ↔ x.2 = xmlUri := by
      constructor
      · intro h; rw [h] at hm; exact map_prefix hg.prefixes hm hg.xml
      · intro h; rw [h] at hm; exact map_key hg.keys hm hg.xml
    have h3 : (x.1 == xmlName) = (x.2 == xmlUri) := by
      rw [Bool.eq_iff_iff]; simpa using h2
    simp [declarationOk, h1, hv.1, hv.2.2, h3]
  · intro sc hsc
    have hext := scope_extend (d' := declare d1 u) (sc := sc) hg (fun x hx => (hdecls x hx).1) (d := d) (by
      intro w hw
      by_cases hwd : w ∈ d1
      · rcases hdec w hwd with h | ⟨q, hq⟩
        · exact .inl h
        · refine .inr ⟨q, ?_⟩
          rw [declarations, List.filterMap_append]
          exact List.mem_append_right _ hq
      · rcases mem_of_declare hw with h | rfl
        · exact absurd h hwd
        · refine .inr ⟨p, ?_⟩
          rw [declarations, List.filterMap_append]
          refine List.mem_append_left _ ?_
          simp [declAttr, hwd, declares_decl]) (hsc.mono fun x hx => sub2 (sub1 hx))
    refine ⟨?_, ?_, ?_⟩
    · intro w hw
      have : ∃ q, (w, q) ∈ s2.nsMap := by
        by_cases hwd : w ∈ d1
        · rcases hdec w hwd with h | ⟨q, hq⟩
          · obtain ⟨q, hq, -⟩ := hsc w h
            exact ⟨q, sub2 (sub1 hq)⟩
          · exact ⟨q, (hdecls (q, w) (by
              rw [declarations, List.filterMap_append]; exact List.mem_append_right _ hq)).1⟩
        · rcases mem_of_declare hw with h | rfl
          · exact absurd h hwd
          · exact ⟨p, hup⟩
      obtain ⟨q, hq⟩ := this
      exact ⟨q, hq, hext w q hq hw⟩
    · simp [elementName, hext u p hup mem_declare]
    · have hr := hres (declarations (declAttr d1 p u ++ ras) ++ sc)
        (fun w q hm hw => hext w q (sub2 hm) (sub_declare hw))
      generalize declarations (declAttr d1 p u ++ ras) ++ sc = sc' at hr
      rw [declAttr]
      split
      · exact hr
      · rw [List.singleton_append, attributes, declares_decl]; exact hr

/-- Putting an element together. -/
theorem resolve_elem {name : QN} {attrs : List (QN × Chars)} {text : Chars} {raws : List Raw} {sc : Scope} {tag : Chars}
    {attrib : List (Chars × Chars)} {es : List PElem} (hd : (declarations attrs).all (fun x => declarationOk x.1 x.2) = true)
    (h1 : elementName (declarations attrs ++ sc) name = some tag)
    (h2 : attributes (declarations attrs ++ sc) attrs = some attrib) (hnd : (attrib.map Prod.fst).Nodup)
    (h3 : resolveAll (declarations attrs ++ sc) raws = some es) :
    (Raw.elem name attrs text raws []).resolve sc = some (.mk tag attrib (some text) (some []) es) := by
  rw [Raw.resolve, if_pos hd]
  simp only [h1, h2, h3, Option.bind_eq_bind, Option.bind_some, if_pos hnd]

theorem leavesTight_setTail (e : PElem) (t : Option Chars) : LeavesTight (e.setTail t) ↔ LeavesTight e := by
  cases e; simp only [PElem.setTail, LeavesTight]

mutual
theorem elem_ok : (e : PElem) → ∀ (indent space : Chars) (d : List Chars) (s s' : PrintState) (str : Chars), PInv s →
    Printable e → Blank indent → Blank space → printElem indent space d e s = .ok str s' →
    PInv s' ∧ s.nsMap ⊆ s'.nsMap ∧ ∃ name attrs text children, (Raw.elem name attrs text children []).Lexical ∧
      str = indent ++ (Raw.elem name attrs text children []).write ∧
      ∀ sc, ScopeOK s.nsMap d sc → ∃ e', (Raw.elem name attrs text children []).resolve sc = some e' ∧ SameContent e' e ∧ LeavesTight e'
  | .mk tag attrib text tail [], indent, space, d, s, s', str, hs, hp, hi, _, h => by
    simp only [Printable] at hp
    obtain ⟨htag, has, hnd, htext, -⟩ := hp
    simp only [printElem] at h
    obtain ⟨⟨sa, d1⟩, s1, h1, h⟩ := pbind_ok.1 h
    obtain ⟨p, s2, h2, h⟩ := pbind_ok.1 h
    obtain ⟨h3, rfl⟩ := ppure_ok.1 h
    obtain ⟨hs2, sub, attrs, hw, hlex, hand, hq, hdecl, hsc⟩ := start_ok hs htag has hnd h1 h2
    have hct := charData_estrip htext
    refine ⟨hs2, sub, ⟨some p, qnLocalPart tag⟩, attrs, estrip text, [], ?_, ?_, ?_⟩
    · simp only [Raw.Lexical, LexicalAll]
      exact ⟨hq, hlex, hand, hct, trivial, charData_nil⟩
    · rw [← h3]
      simp only [Raw.write, writeAll, ← hw, QN.write, qualified, List.append_assoc, List.cons_append, List.append_nil,
        List.nil_append]
    · intro sc hsco
      obtain ⟨-, he, ha⟩ := hsc sc hsco
      refine ⟨_, resolve_elem hdecl he ha hnd (by rw [resolveAll]), ?_, ?_⟩
      · simp only [SameContent, stripped, strippedAll, estrip]
        cases text with
        | none => rfl
        | some t => simp [strip_strip]
      · rw [LeavesTight, LeavesTightAll]
        refine ⟨fun _ t ht => ?_, trivial⟩
        cases ht
        cases text with
        | none => rfl
        | some t => simp [estrip, strip_strip]
  | .mk tag attrib text tail (c :: cs), indent, space, d, s, s', str, hs, hp, hi, hsp, h => by
    simp only [Printable] at hp
    obtain ⟨htag, has, hnd, htext, hcs⟩ := hp
    simp only [printElem] at h
    obtain ⟨⟨sa, d1⟩, s1, h1, h⟩ := pbind_ok.1 h
    obtain ⟨p, s2, h2, h⟩ := pbind_ok.1 h
    obtain ⟨body, s3, hb, h⟩ := pbind_ok.1 h
    obtain ⟨h3, rfl⟩ := ppure_ok.1 h
    obtain ⟨hs2, sub, attrs, hw, hlex, hand, hq, hdecl, hsc⟩ := start_ok hs htag has hnd h1 h2
    have hct := charData_estrip htext
    have hbl := blank_append hi hsp
    obtain ⟨hs3, sub3, hch⟩ := children_ok (c :: cs) _ _ _ _ _ hs2 hcs hbl hb
    obtain ⟨hlt, raws, hrl, hrw, hrs⟩ := hch (List.cons_ne_nil c cs) ('\n' :: indent) (blank_cons hi) (by simp)
    have hsp' : estrip (some (estrip text ++ '\n' :: (indent ++ space))) = estrip text := by
      simp only [estrip]
      rw [strip_blank_right (blank_cons hbl)]
      cases text with
      | none => rfl
      | some t => simp [estrip, strip_strip]
    refine ⟨hs3, fun x hx => sub3 (sub hx), ⟨some p, qnLocalPart tag⟩, attrs, estrip text ++ '\n' :: (indent ++ space), raws,
      ?_, ?_, ?_⟩
    · simp only [Raw.Lexical]
      refine ⟨hq, hlex, hand, ?_, hrl, charData_nil⟩
      have := charData_mid hct (blank_cons hbl) (by simp) charData_nil
      rwa [List.append_nil] at this
    · rw [← h3]
      have hrw' := congrArg (· ++ '<' :: '/' :: (p ++ ':' :: (qnLocalPart tag ++ ['>']))) hrw
      simp only [Raw.write, ← hw, QN.write, qualified, List.append_assoc, List.cons_append,
        List.nil_append] at hrw' ⊢
      rw [← hrw']
    · intro sc hsco
      obtain ⟨hsc2, he, ha⟩ := hsc sc hsco
      obtain ⟨es, hes, hstr, htight⟩ := hrs _ hsc2
      refine ⟨_, resolve_elem hdecl he ha hnd hes, ?_, ?_⟩
      · simp only [SameContent, stripped, hstr, hsp']
      · rw [LeavesTight]
        refine ⟨fun h0 => ?_, htight⟩
        rw [h0, strippedAll_cons, strippedAll] at hstr
        cases hstr
theorem children_ok : (cs : List PElem) → ∀ (indent : Chars) (d : List Chars) (s s' : PrintState) (str : Chars), PInv s →
    PrintableAll cs → Blank indent → printChildren indent d cs s = .ok str s' →
    PInv s' ∧ s.nsMap ⊆ s'.nsMap ∧ ∀ (hne : cs ≠ []) (w : Chars), Blank w → w ≠ [] →
      PlainText (cs.getLast hne).tail ∧ ∃ raws, LexicalAll raws ∧
      '\n' :: indent ++ writeAll raws = str ++ (w ++ estrip (cs.getLast hne).tail) ∧
      ∀ sc, ScopeOK s.nsMap d sc → ∃ es, resolveAll sc raws = some es ∧ strippedAll es = strippedAll cs ∧ LeavesTightAll es
  | [], indent, d, s, s', str, hs, _, _, h => by
    simp only [printChildren] at h
    obtain ⟨-, rfl⟩ := ppure_ok.1 h
    exact ⟨hs, fun _ h => h, fun hne => absurd rfl hne⟩
  | [c], indent, d, s, s', str, hs, hp, hi, h => by
    simp only [PrintableAll] at hp
    simp only [printChildren] at h
    obtain ⟨r, s1, h1, h⟩ := pbind_ok.1 h
    obtain ⟨rest, s2, h2, h⟩ := pbind_ok.1 h
    obtain ⟨h3, rfl⟩ := ppure_ok.1 h
    obtain ⟨h4, rfl⟩ := ppure_ok.1 h2
    obtain ⟨hs1, sub1, name, attrs, text, children, hl, hw, hr⟩ := elem_ok c indent fourSpaces d s s1 r hs hp.1 hi
      blank_fourSpaces h1
    refine ⟨hs1, sub1, fun _ w hwb hwne => ⟨hp.2, [.elem name attrs text children (w ++ estrip c.tail)], ?_, ?_, ?_⟩⟩
    · simp only [LexicalAll]
      refine ⟨lexical_tail hl ?_, trivial⟩
      exact charData_mid (a := []) charData_nil hwb hwne (charData_estrip hp.2)
    · rw [← h3, ← h4, hw]
      simp only [writeAll, write_tail _ _ _ _ (w ++ _), List.append_nil, List.append_assoc, List.cons_append,
        List.getLast_singleton]
    · intro sc hsc
      obtain ⟨e', he, hsame, htight⟩ := hr sc hsc
      refine ⟨[e'.setTail (some (w ++ estrip c.tail))], by simp [resolveAll, resolve_tail he], ?_, (leavesTight_setTail ..).2 htight, trivial⟩
      rw [strippedAll_cons, strippedAll_cons, stripped_setTail, tail_setTail, show stripped e' = stripped c from hsame]
      simp only [strippedAll]
      congr 3
      simp only [estrip]
      rw [strip_blank_left hwb]
      cases c.tail with
      | none => rfl
      | some t => simp [strip_strip]
  | c :: c' :: cs, indent, d, s, s', str, hs, hp, hi, h => by
    simp only [PrintableAll] at hp
    rw [printChildren] at h
    obtain ⟨r, s1, h1, h⟩ := pbind_ok.1 h
    obtain ⟨rest, s2, h2, h⟩ := pbind_ok.1 h
    obtain ⟨h3, rfl⟩ := ppure_ok.1 h
    obtain ⟨hs1, sub1, name, attrs, text, children, hl, hw, hr⟩ := elem_ok c indent fourSpaces d s s1 r hs hp.1 hi
      blank_fourSpaces h1
    obtain ⟨hs2, sub2, hrest⟩ := children_ok (c' :: cs) indent d s1 s2 rest hs1 hp.2.2 hi h2
    refine ⟨hs2, fun x hx => sub2 (sub1 hx), fun hne w hwb hwne => ?_⟩
    obtain ⟨hlt, raws, hrl, hrw, hrs⟩ := hrest (List.cons_ne_nil c' cs) w hwb hwne
    have hbi := blank_cons hi
    refine ⟨by rw [List.getLast_cons_cons]; exact hlt, .elem name attrs text children ('\n' :: indent) :: raws, ?_, ?_, ?_⟩
    · simp only [LexicalAll]
      refine ⟨lexical_tail hl ?_, hrl⟩
      have := charData_mid (a := []) charData_nil hbi (by simp) charData_nil
      simpa using this
    · rw [List.getLast_cons_cons, ← h3, hw]
      simp only [List.cons_append, List.append_assoc] at hrw ⊢
      rw [writeAll, write_tail _ _ _ _ ('\n' :: indent)]
      simp only [List.append_assoc, List.cons_append]
      rw [hrw]
    · intro sc hsc
      obtain ⟨e', he, hsame, htight⟩ := hr sc hsc
      obtain ⟨es, hes, hstr, htights⟩ := hrs sc (hsc.mono sub1)
      refine ⟨e'.setTail (some ('\n' :: indent)) :: es, by simp [resolveAll, resolve_tail he, hes], ?_,
        (leavesTight_setTail ..).2 htight, htights⟩
      rw [strippedAll_cons, strippedAll_cons, stripped_setTail, tail_setTail, show stripped e' = stripped c from hsame, hstr,
        hp.2.1]
      simp only [estrip, strip_blank hbi]
end

end Xacml
