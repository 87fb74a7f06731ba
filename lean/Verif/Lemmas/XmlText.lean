import Verif.Spec.PrettyPrint

/-!
# No string has two readings as XML
-/
namespace Xacml
open Spec

theorem span_unique {P : Char → Bool} {a b x y : Chars} (ha : a.all P = true) (hb : b.all P = true)
    (hx : ∀ c, x.head? = some c → P c = false) (hy : ∀ c, y.head? = some c → P c = false) (h : a ++ x = b ++ y) :
    a = b ∧ x = y := by
  induction a generalizing b with
  | nil =>
    cases b with
    | nil => exact ⟨rfl, h⟩
    | cons c cs =>
      simp only [List.nil_append, List.cons_append] at h
      subst h
      have h1 := hx c rfl
      simp only [List.all_cons, Bool.and_eq_true] at hb
      rw [hb.1] at h1; cases h1
  | cons c cs ih =>
    simp only [List.all_cons, Bool.and_eq_true] at ha
    cases b with
    | nil =>
      simp only [List.nil_append, List.cons_append] at h
      subst h
      have h1 := hy c rfl
      rw [ha.1] at h1; cases h1
    | cons d ds =>
      simp only [List.all_cons, Bool.and_eq_true] at hb
      simp only [List.cons_append, List.cons.injEq] at h
      obtain ⟨h1, h2⟩ := ih ha.2 hb.2 h.2
      exact ⟨by rw [h.1, h1], h2⟩

/-- The next character ends a qualified name. -/
def EndsName (x : Chars) : Prop := ∀ c, x.head? = some c → nameChar c = false ∧ c ≠ ':'

theorem qn_unique {q q' : QN} (hq : q.Lexical) (hq' : q'.Lexical) {x y : Chars} (hx : EndsName x) (hy : EndsName y)
    (h : q.write ++ x = q'.write ++ y) : q = q' ∧ x = y := by
  have hcolon : ∀ z : Chars, ∀ c, (':' :: z).head? = some c → nameChar c = false := by
    intro z c hc; cases hc; decide
  have hx' := fun c hc => (hx c hc).1
  have hy' := fun c hc => (hy c hc).1
  rcases q with ⟨p, l⟩
  rcases q' with ⟨p', l'⟩
  cases p with
  | none =>
    cases p' with
    | none =>
      simp only [QN.write] at h
      obtain ⟨h1, h2⟩ := span_unique hq.1.2 hq'.1.2 hx' hy' h
      simp only at h1
      exact ⟨by rw [h1], h2⟩
    | some p' =>
      simp only [QN.write, List.append_assoc, List.cons_append] at h
      obtain ⟨-, h2⟩ := span_unique hq.1.2 (hq'.2 p' rfl).2 hx' (hcolon _) h
      exact absurd rfl (hx ':' (by rw [h2]; rfl)).2
  | some p =>
    cases p' with
    | none =>
      simp only [QN.write, List.append_assoc, List.cons_append] at h
      obtain ⟨-, h2⟩ := span_unique (hq.2 p rfl).2 hq'.1.2 (hcolon _) hy' h
      exact absurd rfl (hy ':' (by rw [← h2]; rfl)).2
    | some p' =>
      simp only [QN.write, List.append_assoc, List.cons_append] at h
      obtain ⟨h1, h2⟩ := span_unique (hq.2 p rfl).2 (hq'.2 p' rfl).2 (hcolon _) (hcolon _) h
      simp only [List.cons.injEq, true_and] at h2
      obtain ⟨h3, h4⟩ := span_unique hq.1.2 hq'.1.2 hx' hy' h2
      simp only at h3
      exact ⟨by rw [h1, h3], h4⟩

private theorem endsName_cons {c : Char} (h : nameChar c = false ∧ c ≠ ':') (x : Chars) : EndsName (c :: x) := by
  intro d hd; cases hd; exact h

private theorem endsName_attrs (as : List (QN × Chars)) (x : Chars) : EndsName (as.flatMap writeAttr ++ '>' :: x) := by
  cases as with
  | nil => exact endsName_cons (by decide) _
  | cons a as =>
    simp only [List.flatMap_cons, writeAttr, List.cons_append, List.append_assoc]
    exact endsName_cons (by decide) _

theorem attrs_unique {as bs : List (QN × Chars)} (ha : ∀ a ∈ as, a.1.Lexical ∧ AttValue a.2)
    (hb : ∀ a ∈ bs, a.1.Lexical ∧ AttValue a.2) {x y : Chars}
    (h : as.flatMap writeAttr ++ '>' :: x = bs.flatMap writeAttr ++ '>' :: y) : as = bs ∧ x = y := by
  induction as generalizing bs with
  | nil =>
    cases bs with
    | nil => simp at h; exact ⟨rfl, h⟩
    | cons b bs => simp [writeAttr] at h
  | cons a as ih =>
    cases bs with
    | nil => simp [writeAttr] at h
    | cons b bs =>
      simp only [List.flatMap_cons, writeAttr, List.cons_append, List.append_assoc, List.nil_append,
        List.cons.injEq, true_and] at h
      have la := ha a (List.mem_cons_self ..)
      have lb := hb b (List.mem_cons_self ..)
      obtain ⟨h1, h2⟩ := qn_unique la.1 lb.1 (endsName_cons (by decide) _) (endsName_cons (by decide) _) h
      simp only [List.cons.injEq, true_and] at h2
      have hq : ∀ z : Chars, ∀ c, ('"' :: z).head? = some c →
          (fun c => plainChar c && c != '"' && c != '\t' && c != '\n') c = false := by
        intro z c hc; cases hc; decide
      obtain ⟨h3, h4⟩ := span_unique la.2 lb.2 (hq _) (hq _) h2
      simp only [List.cons.injEq, true_and] at h4
      obtain ⟨h5, h6⟩ := ih (fun a h => ha a (List.mem_cons_of_mem _ h)) (fun a h => hb a (List.mem_cons_of_mem _ h)) h4
      exact ⟨by rw [h5, Prod.ext h1 h3], h6⟩

/-- The input ends or a tag begins. -/
def Stops (x : Chars) : Prop := ∀ c, x.head? = some c → c = '<'

private theorem text_unique {a b x y : Chars} (ha : CharData a) (hb : CharData b) (hx : Stops x) (hy : Stops y)
    (h : a ++ x = b ++ y) : a = b ∧ x = y :=
  span_unique ha.1 hb.1 (fun c hc => by rw [hx c hc]; decide) (fun c hc => by rw [hy c hc]; decide) h

private theorem write_head (r : Raw) (x : Chars) : ∃ z, r.write ++ x = '<' :: z := by
  cases r; simp only [Raw.write, List.cons_append]; exact ⟨_, rfl⟩

private theorem writeAll_stops (rs : List Raw) (x : Chars) : Stops (writeAll rs ++ '<' :: x) := by
  intro c hc
  cases rs with
  | nil => simp [writeAll] at hc; exact hc.symm
  | cons r rs =>
    obtain ⟨z, hz⟩ := write_head r (writeAll rs ++ '<' :: x)
    simp only [writeAll, List.append_assoc] at hc
    rw [hz] at hc
    cases hc; rfl

private theorem write_not_close {r : Raw} (hr : r.Lexical) (x y : Chars) : r.write ++ x ≠ '<' :: '/' :: y := by
  cases r with
  | elem name attrs text children tail =>
    simp only [Raw.Lexical] at hr
    have h1 : ∃ c cs, name.write = c :: cs ∧ nameStartChar c = true := by
      rcases name with ⟨p, l⟩
      cases p with
      | none =>
        have := hr.1.1.1
        simp only [QN.write]
        cases l with
        | nil => simp at this
        | cons c cs => exact ⟨c, cs, rfl, by simpa using this⟩
      | some p =>
        have := (hr.1.2 p rfl).1
        simp only [QN.write]
        cases p with
        | nil => simp at this
        | cons c cs => exact ⟨c, _, rfl, by simpa using this⟩
    obtain ⟨c, cs, h1, h2⟩ := h1
    simp only [Raw.write, h1, List.cons_append, ne_eq, List.cons.injEq, true_and]
    rintro ⟨rfl, -⟩
    revert h2; decide

mutual
theorem write_unique : (r : Raw) → (r' : Raw) → r.Lexical → r'.Lexical → ∀ x y, Stops x → Stops y →
    r.write ++ x = r'.write ++ y → r = r' ∧ x = y
  | .elem name attrs text children tail, .elem name' attrs' text' children' tail', hr, hr', x, y, hx, hy, h => by
    simp only [Raw.Lexical] at hr hr'
    simp only [Raw.write, List.cons_append, List.append_assoc, List.cons.injEq, true_and] at h
    obtain ⟨e1, h⟩ := qn_unique hr.1 hr'.1 (endsName_attrs _ _) (endsName_attrs _ _) h
    obtain ⟨e2, h⟩ := attrs_unique hr.2.1 hr'.2.1 h
    obtain ⟨e3, h⟩ := text_unique hr.2.2.2.1 hr'.2.2.2.1 (writeAll_stops _ _) (writeAll_stops _ _) h
    obtain ⟨e4, h⟩ := writeAll_unique children children' hr.2.2.2.2.1 hr'.2.2.2.2.1 _ _ h
    obtain ⟨-, h⟩ := qn_unique hr.1 hr'.1 (endsName_cons (by decide) _) (endsName_cons (by decide) _) h
    simp only [List.cons.injEq, true_and] at h
    obtain ⟨e5, h⟩ := text_unique hr.2.2.2.2.2 hr'.2.2.2.2.2 hx hy h
    exact ⟨by rw [e1, e2, e3, e4, e5], h⟩
theorem writeAll_unique : (rs : List Raw) → (rs' : List Raw) → LexicalAll rs → LexicalAll rs' → ∀ x y,
    writeAll rs ++ '<' :: '/' :: x = writeAll rs' ++ '<' :: '/' :: y → rs = rs' ∧ x = y
  | [], [], _, _, x, y, h => by simp [writeAll] at h; exact ⟨rfl, h⟩
  | [], r' :: rs', _, hr', x, y, h => by
    simp only [LexicalAll] at hr'
    simp only [writeAll, List.nil_append, List.append_assoc] at h
    exact absurd h.symm (write_not_close hr'.1 _ _)
  | r :: rs, [], hr, _, x, y, h => by
    simp only [LexicalAll] at hr
    simp only [writeAll, List.nil_append, List.append_assoc] at h
    exact absurd h (write_not_close hr.1 _ _)
  | r :: rs, r' :: rs', hr, hr', x, y, h => by
    simp only [LexicalAll] at hr hr'
    simp only [writeAll, List.append_assoc] at h
    obtain ⟨e1, h⟩ := write_unique r r' hr.1 hr'.1 _ _ (writeAll_stops _ _) (writeAll_stops _ _) h
    obtain ⟨e2, h⟩ := writeAll_unique rs rs' hr.2 hr'.2 _ _ h
    exact ⟨by rw [e1, e2], h⟩
end

/-- A string says one thing. -/
theorem isXml_unique {s : Chars} {e e' : PElem} (h : IsXml s e) (h' : IsXml s e') : e = e' := by
  obtain ⟨r, l, w, n⟩ := h
  obtain ⟨r', l', w', n'⟩ := h'
  have := (write_unique r r' l l' [] [] (by simp [Stops]) (by simp [Stops]) (by rw [w, w'])).1
  rw [this, n'] at n
  exact (Option.some.inj n).symm

/-- A string whose prefixes or declarations are wrong says nothing. -/
theorem not_isXml {r : Raw} (l : r.Lexical) (h : r.resolve [(xmlName, xmlUri)] = none) (e : PElem) : ¬ IsXml r.write e := by
  rintro ⟨r', l', w', n'⟩
  have := (write_unique r r' l l' [] [] (by simp [Stops]) (by simp [Stops]) (by rw [w'])).1
  rw [← this, h] at n'
  cases n'

end Xacml
