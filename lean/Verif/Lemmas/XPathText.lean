import Verif.Spec.XPath

/-!
# Reading and compiling paths
-/
namespace Xacml
open Spec

/-! ## Characters -/

theorem xp_alpha_bounds {c : Char} (h : c.isAlpha = true) :
    (65 ≤ c.toNat ∧ c.toNat ≤ 90) ∨ (97 ≤ c.toNat ∧ c.toNat ≤ 122) := by
  simp only [Char.isAlpha, Char.isUpper, Char.isLower, Bool.or_eq_true,
    Bool.and_eq_true, decide_eq_true_eq, UInt32.le_iff_toNat_le] at h
  simp only [Char.toNat]
  rcases h with h | h
  · exact .inl h
  · exact .inr h

theorem xp_digit_bounds {c : Char} (h : c.isDigit = true) : 48 ≤ c.toNat ∧ c.toNat ≤ 57 := by
  simp only [Char.isDigit, Bool.and_eq_true, decide_eq_true_eq, UInt32.le_iff_toNat_le] at h
  simp only [Char.toNat]
  exact h

theorem xp_nameStart_bounds {c : Char} (h : NameStart c) :
    c.toNat = 95 ∨ (65 ≤ c.toNat ∧ c.toNat ≤ 90) ∨ (97 ≤ c.toNat ∧ c.toNat ≤ 122) ∨
      (128 ≤ c.toNat ∧ isPySpace c = false) := by
  rcases h with h | rfl | h
  · have := xp_alpha_bounds h; omega
  · exact .inl rfl
  · exact .inr (.inr (.inr h))

theorem xp_nameChar_bounds {c : Char} (h : NameChar c) :
    c.toNat = 45 ∨ c.toNat = 46 ∨ (48 ≤ c.toNat ∧ c.toNat ≤ 57) ∨ c.toNat = 95 ∨
      (65 ≤ c.toNat ∧ c.toNat ≤ 90) ∨ (97 ≤ c.toNat ∧ c.toNat ≤ 122) ∨ (128 ≤ c.toNat ∧ isPySpace c = false) := by
  rcases h with h | h | rfl | rfl
  · have := xp_nameStart_bounds h
    rcases this with h | h | h | h
    · exact .inr (.inr (.inr (.inl h)))
    · exact .inr (.inr (.inr (.inr (.inl h))))
    · exact .inr (.inr (.inr (.inr (.inr (.inl h)))))
    · exact .inr (.inr (.inr (.inr (.inr (.inr h)))))
  · have := xp_digit_bounds h; omega
  · exact .inl rfl
  · exact .inr (.inl rfl)

theorem xp_nameChar_ne {c d : Char} (h : NameChar c)
    (hd : d.toNat ∈ [47, 91, 93, 40, 41, 64, 33, 61, 123, 125, 42, 58, 39, 34]) : c ≠ d := by
  rintro rfl
  have := xp_nameChar_bounds h
  simp only [List.mem_cons, List.not_mem_nil, or_false] at hd
  omega

theorem xp_nameChar_path {c : Char} (h : NameChar c) : isPathChar c = true := by
  have hb := xp_nameChar_bounds h
  have hs : isPySpace c = false := by
    by_cases h128 : 128 ≤ c.toNat
    · rcases hb with h | h | h | h | h | h | h
      all_goals first | exact h.2 | omega
    · simp only [isPySpace, Bool.or_eq_false_iff, Bool.and_eq_false_iff, decide_eq_false_iff_not, beq_eq_false_iff_ne]
      omega
  have hn := fun (d : Char) => @xp_nameChar_ne c d h
  simp [isPathChar, hs, hn '/' (by decide), hn '[' (by decide), hn ']' (by decide), hn '(' (by decide),
    hn ')' (by decide), hn '@' (by decide), hn '!' (by decide), hn '=' (by decide)]

/-- What may follow a name. -/
def NameEnds (rest : Chars) : Prop := ∀ c, rest.head? = some c → isPathChar c = false

theorem xp_ends_nil : NameEnds [] := by intro c h; cases h
theorem xp_ends_cons {c : Char} {cs : Chars} (h : isPathChar c = false) : NameEnds (c :: cs) := by
  rintro d ⟨⟩; exact h

theorem xp_takeWhile {p : Char → Bool} : ∀ {l rest : Chars}, (∀ d ∈ l, p d = true) →
    (∀ c, rest.head? = some c → p c = false) → (l ++ rest).takeWhile p = l
  | [], [], _, _ => rfl
  | [], c :: cs, _, h => by simp [h c rfl]
  | a :: l, rest, h, h' => by
    rw [List.cons_append, List.takeWhile_cons_of_pos (h a (by simp)), xp_takeWhile (fun d hd => h d (by simp [hd])) h']

theorem xp_dropWhile {p : Char → Bool} : ∀ {l rest : Chars}, (∀ d ∈ l, p d = true) →
    (∀ c, rest.head? = some c → p c = false) → (l ++ rest).dropWhile p = rest
  | [], [], _, _ => rfl
  | [], c :: cs, _, h => by simp [h c rfl]
  | a :: l, rest, h, h' => by
    rw [List.cons_append, List.dropWhile_cons_of_pos (h a (by simp)), xp_dropWhile (fun d hd => h d (by simp [hd])) h']

/-! ## Tokens -/

/-- A string that is read as one name: without braces, or with a namespace. -/
def NameText (t : Chars) : Prop :=
  (∃ c cs, t = c :: cs ∧ (∀ d ∈ t, isPathChar d = true ∧ d ≠ ':') ∧
    c ∉ ['\'', '"', '.', '*', '{']) ∨
  (∃ ns loc, t = '{' :: ns ++ '}' :: loc ∧ ns ≠ [] ∧ '}' ∉ ns ∧ loc ≠ [] ∧ ∀ d ∈ loc, isPathChar d = true)

theorem xp_nameText_plain {t : Chars} (h : PlainName t) : NameText t := by
  obtain ⟨c, cs, rfl, hc, hcs⟩ := h
  have hall : ∀ d ∈ c :: cs, NameChar d := by
    intro d hd
    rcases List.mem_cons.1 hd with rfl | hd
    · exact .inl hc
    · exact hcs d hd
  refine .inl ⟨c, cs, rfl, fun d hd => ⟨xp_nameChar_path (hall d hd), xp_nameChar_ne (hall d hd) (by decide)⟩, ?_⟩
  have hn := fun (d : Char) => @xp_nameChar_ne c d (.inl hc)
  have hb := xp_nameStart_bounds hc
  simp only [List.mem_cons, List.not_mem_nil, or_false, not_or]
  refine ⟨hn _ (by decide), hn _ (by decide), ?_, hn _ (by decide), hn _ (by decide)⟩
  rintro rfl
  simp at hb

theorem xp_plain_path {t : Chars} (h : PlainName t) : t ≠ [] ∧ ∀ d ∈ t, isPathChar d = true := by
  obtain ⟨c, cs, rfl, hc, hcs⟩ := h
  refine ⟨by simp, fun d hd => ?_⟩
  rcases List.mem_cons.1 hd with rfl | hd
  · exact xp_nameChar_path (.inl hc)
  · exact xp_nameChar_path (hcs d hd)

theorem xp_nameText_tag {t : Chars} (h : TagName t) : NameText t := by
  rcases h with h | ⟨ns, name, rfl, ⟨h1, h2, -⟩, h3⟩
  · exact xp_nameText_plain h
  · exact .inr ⟨ns, name, rfl, h1, h2, xp_plain_path h3⟩

theorem xp_nameText_test {n : NameTest} (h : n.Ok) (ha : n ≠ .any) : NameText n.text := by
  cases n with
  | any => exact absurd rfl ha
  | tag t => exact xp_nameText_tag h
  | inAny name => exact .inr ⟨['*'], name, rfl, by simp, by simp, xp_plain_path h⟩
  | allIn ns => exact .inr ⟨ns, ['*'], by simp [NameTest.text], h.1, h.2.1, by simp, by decide⟩

theorem xp_digit_path {c : Char} (h : c.isDigit = true) : isPathChar c = true ∧ c ≠ ':' :=
  ⟨xp_nameChar_path (.inr (.inl h)), xp_nameChar_ne (.inr (.inl h)) (by decide)⟩

theorem xp_nameText_digits {ds : Chars} (hne : ds ≠ []) (h : ∀ d ∈ ds, d.isDigit = true) : NameText ds := by
  cases ds with
  | nil => exact absurd rfl hne
  | cons c cs =>
    refine .inl ⟨c, cs, rfl, fun d hd => xp_digit_path (h d hd), ?_⟩
    have hn := fun (d : Char) => @xp_nameChar_ne c d (.inr (.inl (h c (by simp))))
    have hb := xp_digit_bounds (h c (by simp))
    simp only [List.mem_cons, List.not_mem_nil, or_false, not_or]
    refine ⟨hn _ (by decide), hn _ (by decide), ?_, hn _ (by decide), hn _ (by decide)⟩
    rintro rfl
    simp at hb

theorem xp_nameText_minus {ds : Chars} (h : ∀ d ∈ ds, d.isDigit = true) : NameText ('-' :: ds) := by
  refine .inl ⟨'-', ds, rfl, fun d hd => ?_, by decide⟩
  rcases List.mem_cons.1 hd with rfl | hd
  · exact ⟨by decide, by decide⟩
  · exact xp_digit_path (h d hd)

theorem xp_nameText_last : NameText (chars% "last") :=
  .inl ⟨'l', ['a', 's', 't'], rfl, by decide, by decide⟩

theorem xp_tagToken {t rest : Chars} (h : NameText t) (he : NameEnds rest) : tagToken (t ++ rest) = t := by
  rcases h with ⟨c, cs, rfl, hp, hc⟩ | ⟨ns, loc, rfl, h1, h2, h3, h4⟩
  · have htw : (c :: cs ++ rest).takeWhile isPathChar = c :: cs := xp_takeWhile (fun d hd => (hp d hd).1) he
    have hcb : c ≠ '{' := by rintro rfl; simp at hc
    unfold tagToken
    rw [htw]
    simp only [List.cons_append]
    split
    · rename_i heq; injection heq with h _; exact absurd h hcb
    · rfl
  · have e1 : (ns ++ '}' :: (loc ++ rest)).takeWhile (· != '}') = ns :=
      xp_takeWhile (fun d hd => by simp; rintro rfl; exact h2 hd) (by simp)
    have e2 : (ns ++ '}' :: (loc ++ rest)).dropWhile (· != '}') = '}' :: (loc ++ rest) :=
      xp_dropWhile (fun d hd => by simp; rintro rfl; exact h2 hd) (by simp)
    have e3 : (loc ++ rest).takeWhile isPathChar = loc := xp_takeWhile h4 he
    unfold tagToken
    simp only [List.cons_append, List.append_assoc, e1, e2, e3, h1, h3, or_self, if_false]

theorem xp_nameToken {t : Chars} (h : NameText t) : nameToken t = .tag t := by
  unfold nameToken
  rw [if_neg]
  rcases h with ⟨c, cs, rfl, hp, hc⟩ | ⟨ns, loc, rfl, h1, h2, h3, h4⟩
  · rintro ⟨-, h⟩; exact (hp _ h).2 rfl
  · rintro ⟨h, -⟩; simp at h

theorem xp_nameText_ne {t : Chars} (h : NameText t) : t ≠ [] := by
  rcases h with ⟨c, cs, rfl, _⟩ | ⟨ns, loc, rfl, _⟩ <;> simp

theorem xp_nameText_head {t : Chars} (h : NameText t) : ∃ c cs, t = c :: cs ∧
    c ∉ ['\'', '"', ':', '/', '.', '(', '!', '*', '[', ']', ')', '@', '='] := by
  rcases h with ⟨c, cs, rfl, hp, hc⟩ | ⟨ns, loc, rfl, _⟩
  · refine ⟨c, cs, rfl, ?_⟩
    obtain ⟨h1, h2⟩ := hp c (by simp)
    simp only [isPathChar, Bool.and_eq_true, Bool.not_eq_true', List.contains_eq_mem, decide_eq_false_iff_not,
      List.mem_cons, List.not_mem_nil, or_false, not_or] at h1
    simp only [List.mem_cons, List.not_mem_nil, or_false, not_or] at hc ⊢
    obtain ⟨⟨a, b, d, e, f, g, i, j⟩, -⟩ := h1
    obtain ⟨k, l, m, n, o⟩ := hc
    exact ⟨k, l, h2, a, m, e, i, n, b, d, f, g, j⟩
  · exact ⟨_, _, rfl, by decide⟩

theorem xp_firstToken {t rest : Chars} (h : NameText t) (he : NameEnds rest) :
    firstToken (t ++ rest) = some (.tag t, t.length) := by
  have h1 := xp_tagToken h he
  have h2 := xp_nameToken h
  have h3 := xp_nameText_ne h
  obtain ⟨c, cs, rfl, hc⟩ := xp_nameText_head h
  simp only [List.mem_cons, List.not_mem_nil, or_false, not_or] at hc
  obtain ⟨k1, k2, k3, k4, k5, k6, k7, k8, k9, k10, k11, k12, k13⟩ := hc
  rw [List.cons_append] at h1 ⊢
  unfold firstToken
  simp only [h1, h2]
  simp [k1, k2, k3, k4, k5, k6, k7, k8, k9, k10, k11, k12, k13]

theorem xp_from_drop : ∀ (k : Nat) (s : Chars), xtokensFrom k s = xtokens (s.drop k)
  | _, [] => by cases ‹Nat› <;> rfl
  | 0, _ :: _ => rfl
  | k + 1, _ :: cs => by rw [xtokensFrom, xp_from_drop k cs]; rfl

theorem xp_tokens {a rest : Chars} {t : XTok} (hne : a ≠ []) (h : firstToken (a ++ rest) = some (t, a.length)) :
    xtokens (a ++ rest) = t :: xtokens rest := by
  cases a with
  | nil => exact absurd rfl hne
  | cons c cs =>
    rw [List.cons_append] at h ⊢
    rw [xtokens, xtokensFrom, h]
    simp only [List.length_cons, Nat.add_sub_cancel]
    rw [xp_from_drop]; simp

theorem xp_tokens_name {t rest : Chars} (h : NameText t) (he : NameEnds rest) :
    xtokens (t ++ rest) = .tag t :: xtokens rest := xp_tokens (xp_nameText_ne h) (xp_firstToken h he)

theorem xp_tokens_quoted {v rest : Chars} (h : ¬ ('\'' ∈ v ∧ '"' ∈ v)) :
    xtokens (quoted v ++ rest) = .lit v :: xtokens rest := by
  have key : ∀ q : Char, (q = '\'' ∨ q = '"') → q ∉ v →
      xtokens (([q] ++ v ++ [q]) ++ rest) = .lit v :: xtokens rest := by
    intro q hq hv
    have e : (v ++ q :: rest).takeWhile (· != q) = v :=
      xp_takeWhile (fun d hd => by simp; rintro rfl; exact hv hd) (by simp)
    refine xp_tokens (by simp) ?_
    simp only [List.append_assoc, List.cons_append, List.nil_append]
    have hc : (q = '\'' ∨ q = '"') ∧ q ∈ v ++ q :: rest := ⟨hq, by simp⟩
    rw [firstToken, if_pos hc, e]
    simp
  unfold quoted
  split
  · exact key '"' (.inr rfl) fun hv => h ⟨by assumption, hv⟩
  · exact key '\'' (.inl rfl) (by assumption)

theorem xp_tokens_sym {c : Char} {rest : Chars} (hc : c ∈ ['*', '[', ']', '@', '=']) :
    xtokens (c :: rest) = .sym c :: xtokens rest := by
  refine xp_tokens (a := [c]) (by simp) ?_
  simp only [List.mem_cons, List.not_mem_nil, or_false] at hc
  rcases hc with rfl | rfl | rfl | rfl | rfl <;> simp [firstToken]

theorem xp_tokens_slash {rest : Chars} (h : rest.head? ≠ some '/') : xtokens ('/' :: rest) = .slash :: xtokens rest := by
  refine xp_tokens (a := ['/']) (by simp) ?_
  simp [firstToken, h]

theorem xp_tokens_dslash {rest : Chars} : xtokens ('/' :: '/' :: rest) = .dslash :: xtokens rest := by
  refine xp_tokens (a := ['/', '/']) (by simp) ?_
  simp [firstToken]

theorem xp_tokens_dot {rest : Chars} (h : rest.head? ≠ some '.') : xtokens ('.' :: rest) = .dot :: xtokens rest := by
  refine xp_tokens (a := ['.']) (by simp) ?_
  simp [firstToken, h]

theorem xp_tokens_ddot {rest : Chars} : xtokens ('.' :: '.' :: rest) = .ddot :: xtokens rest := by
  refine xp_tokens (a := ['.', '.']) (by simp) ?_
  simp [firstToken]

theorem xp_tokens_ne {rest : Chars} : xtokens ('!' :: '=' :: rest) = .ne :: xtokens rest := by
  refine xp_tokens (a := ['!', '=']) (by simp) ?_
  simp [firstToken]

theorem xp_tokens_parens {rest : Chars} : xtokens ('(' :: ')' :: rest) = .parens :: xtokens rest := by
  refine xp_tokens (a := ['(', ')']) (by simp) ?_
  simp [firstToken]

/-! ## Tokens of paths -/

def Spec.NameTest.tok : NameTest → XTok
  | .any => .sym '*'
  | n => .tag n.text

def Spec.Pred.toks : Pred → List XTok
  | .hasAttr k => [.sym '@', .tag k]
  | .attrIs k v => [.sym '@', .tag k, .sym '=', .lit v]
  | .attrNot k v => [.sym '@', .tag k, .ne, .lit v]
  | .hasChild n => [.tag n.text]
  | .childIs n v => [.tag n.text, .sym '=', .lit v]
  | .childNot n v => [.tag n.text, .ne, .lit v]
  | .textIs v => [.dot, .sym '=', .lit v]
  | .textNot v => [.dot, .ne, .lit v]
  | .nth n => [.tag n.repr.toList]
  | .fromLast n => .tag (chars% "last") :: .parens :: (if n = 0 then [] else [.tag ('-' :: n.repr.toList)])

def Spec.Pred.allToks (p : Pred) : List XTok := .sym '[' :: (p.toks ++ [.sym ']'])

theorem xp_repr (n : Nat) : n.repr.toList ≠ [] ∧ ∀ d ∈ n.repr.toList, d.isDigit = true := by
  rw [Nat.toList_repr]
  exact ⟨Nat.toDigits_ne_nil, fun d hd => Nat.isDigit_of_mem_toDigits (by omega) (by omega) hd⟩

theorem xp_value_repr (n : Nat) : digitsValue n.repr.toList = n := by
  rw [Nat.toList_repr]
  have := Nat.ofDigitChars_toDigits (b := 10) (n := n) (by omega) (by omega)
  rwa [Nat.ofDigitChars_eq_foldl] at this

theorem xp_toks_inner {p : Pred} (h : p.Ok) (rest : Chars) :
    xtokens (p.inner ++ ']' :: rest) = p.toks ++ .sym ']' :: xtokens rest := by
  have he : NameEnds (']' :: rest) := xp_ends_cons (by decide)
  have hq : ∀ {r : Chars}, NameEnds ('=' :: r) := xp_ends_cons (by decide)
  have hx : ∀ {r : Chars}, NameEnds ('!' :: r) := xp_ends_cons (by decide)
  have hb : xtokens (']' :: rest) = .sym ']' :: xtokens rest := xp_tokens_sym (by decide)
  cases p with
  | hasAttr k =>
    simp only [Pred.inner, Pred.toks, List.cons_append, List.nil_append]
    rw [xp_tokens_sym (by decide), xp_tokens_name (xp_nameText_tag h) he, hb]
  | attrIs k v =>
    simp only [Pred.inner, Pred.toks, List.cons_append, List.nil_append, List.append_assoc]
    rw [xp_tokens_sym (by decide), xp_tokens_name (xp_nameText_tag h.1) hq, xp_tokens_sym (by decide),
      xp_tokens_quoted h.2, hb]
  | attrNot k v =>
    simp only [Pred.inner, Pred.toks, List.cons_append, List.nil_append, List.append_assoc]
    rw [xp_tokens_sym (by decide), xp_tokens_name (xp_nameText_tag h.1) hx, xp_tokens_ne,
      xp_tokens_quoted h.2, hb]
  | hasChild n =>
    simp only [Pred.inner, Pred.toks, List.cons_append, List.nil_append]
    rw [xp_tokens_name (xp_nameText_test h.1 h.2) he, hb]
  | childIs n v =>
    simp only [Pred.inner, Pred.toks, List.cons_append, List.nil_append, List.append_assoc]
    rw [xp_tokens_name (xp_nameText_test h.1 h.2.1) hq, xp_tokens_sym (by decide), xp_tokens_quoted h.2.2, hb]
  | childNot n v =>
    simp only [Pred.inner, Pred.toks, List.cons_append, List.nil_append, List.append_assoc]
    rw [xp_tokens_name (xp_nameText_test h.1 h.2.1) hx, xp_tokens_ne, xp_tokens_quoted h.2.2, hb]
  | textIs v =>
    simp only [Pred.inner, Pred.toks, List.cons_append, List.nil_append, List.append_assoc]
    rw [xp_tokens_dot (by simp), xp_tokens_sym (by decide), xp_tokens_quoted h, hb]
  | textNot v =>
    simp only [Pred.inner, Pred.toks, List.cons_append, List.nil_append, List.append_assoc]
    rw [xp_tokens_dot (by simp), xp_tokens_ne, xp_tokens_quoted h, hb]
  | nth n =>
    simp only [Pred.inner, Pred.toks, List.cons_append, List.nil_append]
    rw [xp_tokens_name (xp_nameText_digits (xp_repr n).1 (xp_repr n).2) he, hb]
  | fromLast n =>
    have hl : ∀ r : Chars, xtokens ((chars% "last()") ++ r) = .tag (chars% "last") :: .parens :: xtokens r := by
      intro r
      have : (chars% "last()") ++ r = (chars% "last") ++ '(' :: ')' :: r := rfl
      rw [this, xp_tokens_name xp_nameText_last (xp_ends_cons (by decide)), xp_tokens_parens]
    simp only [Pred.inner, Pred.toks, List.append_assoc]
    rw [hl]
    by_cases hn : n = 0
    · simp [hn, hb]
    · simp only [hn, if_false]
      rw [xp_tokens_name (xp_nameText_minus (xp_repr n).2) he, hb]
      rfl

theorem xp_toks_pred {p : Pred} (h : p.Ok) (rest : Chars) :
    xtokens (p.text ++ rest) = p.allToks ++ xtokens rest := by
  have : p.text ++ rest = '[' :: (p.inner ++ ']' :: rest) := by simp [Pred.text]
  rw [this, xp_tokens_sym (by decide), xp_toks_inner h]
  simp [Pred.allToks]

theorem xp_toks_preds : ∀ {ps : List Pred}, (∀ p ∈ ps, p.Ok) → ∀ rest : Chars,
    xtokens (ps.flatMap Pred.text ++ rest) = ps.flatMap Pred.allToks ++ xtokens rest
  | [], _, _ => rfl
  | p :: ps, h, rest => by
    rw [List.flatMap_cons, List.append_assoc, xp_toks_pred (h p (by simp)),
      xp_toks_preds (fun x hx => h x (by simp [hx])), List.flatMap_cons, List.append_assoc]

theorem xp_preds_ends {ps : List Pred} {rest : Chars} (he : NameEnds rest) : NameEnds (ps.flatMap Pred.text ++ rest) := by
  cases ps with
  | nil => exact he
  | cons p ps =>
    have : (p :: ps).flatMap Pred.text ++ rest = '[' :: (p.inner ++ ']' :: (ps.flatMap Pred.text ++ rest)) := by
      simp [Pred.text]
    rw [this]
    exact xp_ends_cons (by decide)

theorem xp_toks_test {n : NameTest} (h : n.Ok) {rest : Chars} (he : NameEnds rest) :
    xtokens (n.text ++ rest) = n.tok :: xtokens rest := by
  cases n with
  | any => exact xp_tokens_sym (by decide)
  | _ => exact xp_tokens_name (xp_nameText_test h (by simp)) he

def Spec.Step.toks : Step → List XTok
  | .child n ps => .slash :: n.tok :: ps.flatMap Pred.allToks
  | .deep n ps => .dslash :: n.tok :: ps.flatMap Pred.allToks
  | .self => [.slash, .dot]
  | .parent => [.slash, .ddot]

theorem xp_test_head {n : NameTest} (h : n.Ok) : ∃ c cs, n.text = c :: cs ∧ c ≠ '/' := by
  cases n with
  | any => exact ⟨_, _, rfl, by decide⟩
  | _ =>
    obtain ⟨c, cs, h1, h2⟩ := xp_nameText_head (xp_nameText_test h (by simp))
    exact ⟨c, cs, h1, by rintro rfl; simp at h2⟩

/-- The rest of a path starts with a slash, if there is one. -/
def SlashOrEnd (rest : Chars) : Prop := rest = [] ∨ ∃ cs, rest = '/' :: cs

theorem SlashOrEnd.ends {rest : Chars} (h : SlashOrEnd rest) : NameEnds rest := by
  rcases h with rfl | ⟨cs, rfl⟩
  · exact xp_ends_nil
  · exact xp_ends_cons (by decide)

theorem xp_toks_step {s : Step} (h : s.Ok) {rest : Chars} (he : SlashOrEnd rest) :
    xtokens (s.text ++ rest) = s.toks ++ xtokens rest := by
  have hd : rest.head? ≠ some '.' := by
    rcases he with rfl | ⟨cs, rfl⟩ <;> simp
  cases s with
  | child n ps =>
    obtain ⟨c, cs, hc, hne⟩ := xp_test_head h.1
    simp only [Step.text, Step.toks, List.cons_append, List.nil_append, List.append_assoc]
    rw [xp_tokens_slash (by rw [hc]; simpa using hne), xp_toks_test h.1 (xp_preds_ends he.ends),
      xp_toks_preds h.2.1]
  | deep n ps =>
    simp only [Step.text, Step.toks, List.cons_append, List.nil_append, List.append_assoc]
    rw [xp_tokens_dslash, xp_toks_test h.1 (xp_preds_ends he.ends), xp_toks_preds h.2.1]
  | self =>
    simp only [Step.text, Step.toks, List.cons_append, List.nil_append]
    rw [xp_tokens_slash (by simp), xp_tokens_dot hd]
  | parent =>
    simp only [Step.text, Step.toks, List.cons_append, List.nil_append]
    rw [xp_tokens_slash (by simp), xp_tokens_ddot]

theorem xp_step_slash (s : Step) : ∃ cs, s.text = '/' :: cs := by
  cases s <;> exact ⟨_, rfl⟩

theorem xp_path_slash (ss : List Step) : SlashOrEnd (ss.flatMap Step.text) := by
  cases ss with
  | nil => exact .inl rfl
  | cons s ss =>
    obtain ⟨cs, hcs⟩ := xp_step_slash s
    exact .inr ⟨cs ++ ss.flatMap Step.text, by simp [hcs]⟩

theorem xp_path_slash_append (ss : List Step) {rest : Chars} (h : SlashOrEnd rest) : SlashOrEnd (ss.flatMap Step.text ++ rest) := by
  cases ss with
  | nil => exact h
  | cons s ss =>
    obtain ⟨cs, hcs⟩ := xp_step_slash s
    exact .inr ⟨cs ++ (ss.flatMap Step.text ++ rest), by simp [hcs]⟩

theorem xp_toks_path : ∀ {ss : List Step}, PathOk ss → ∀ {rest : Chars}, SlashOrEnd rest →
    xtokens (ss.flatMap Step.text ++ rest) = ss.flatMap Step.toks ++ xtokens rest
  | [], _, _, _ => rfl
  | s :: ss, h, rest, he => by
    rw [List.flatMap_cons, List.append_assoc, xp_toks_step (h s (by simp)) (xp_path_slash_append ss he),
      xp_toks_path (fun x hx => h x (by simp [hx])) he, List.flatMap_cons, List.append_assoc]

/-! ## Compiling -/

def Spec.Pred.op : Pred → XPred
  | .hasAttr k => .hasAttr k
  | .attrIs k v => .attr false k v
  | .attrNot k v => .attr true k v
  | .hasChild n => .hasChild n.text
  | .childIs n v => .child false n.text v
  | .childNot n v => .child true n.text v
  | .textIs v => .text false v
  | .textNot v => .text true v
  | .nth n => .index n
  | .fromLast n => .fromLast n

def Spec.NameTest.childOp : NameTest → XOp
  | .any => .star
  | n => .child n.text

def Spec.NameTest.deepOp : NameTest → XOp
  | .any => .descendant none
  | n => .descendant (some n.text)

def Spec.Step.ops : Step → List XOp
  | .child n ps => n.childOp :: ps.map fun p => .pred p.op
  | .deep n ps => n.deepOp :: ps.map fun p => .pred p.op
  | .self => [.self]
  | .parent => [.parent]

theorem xp_not_integer_plain {t : Chars} {c : Char} {cs : Chars} (ht : t = c :: cs) (h1 : c ≠ '-')
    (h2 : c.isDigit = false) : isInteger t = false := by
  subst ht
  simp [isInteger, h1, h2]

theorem xp_nameStart_digit {c : Char} (h : NameStart c) : c ≠ '-' ∧ c.isDigit = false := by
  have hb := xp_nameStart_bounds h
  refine ⟨by rintro rfl; simp at hb, ?_⟩
  cases hd : c.isDigit with
  | false => rfl
  | true => have := xp_digit_bounds hd; omega

theorem xp_test_not_integer {n : NameTest} (h : n.Ok) (ha : n ≠ .any) : isInteger n.text = false := by
  have hbrace : ∀ cs : Chars, isInteger ('{' :: cs) = false := fun cs =>
    xp_not_integer_plain rfl (by decide) (by decide)
  cases n with
  | any => exact absurd rfl ha
  | tag t =>
    rcases h with ⟨c, cs, rfl, hc, -⟩ | ⟨ns, name, rfl, -⟩
    · exact xp_not_integer_plain rfl (xp_nameStart_digit hc).1 (xp_nameStart_digit hc).2
    · exact hbrace _
  | inAny name => exact hbrace _
  | allIn ns => exact hbrace _

theorem xp_predicate {p : Pred} (h : p.Ok) : predicateOf p.toks = .ok p.op := by
  cases p with
  | hasChild n => simp [Pred.toks, predicateOf, Pred.op, xp_test_not_integer h.1 h.2]
  | childIs n v => simp [Pred.toks, predicateOf, Pred.op, xp_test_not_integer h.1 h.2.1]
  | childNot n v => simp [Pred.toks, predicateOf, Pred.op, xp_test_not_integer h.1 h.2.1]
  | nth n =>
    have hr := xp_repr n
    have hv := xp_value_repr n
    have hpos : 1 ≤ n := h
    have hm : n.repr.toList.head? ≠ some '-' := by
      intro hh
      have hmem : '-' ∈ n.repr.toList := List.mem_of_head? hh
      exact absurd (hr.2 _ hmem) (by decide)
    have hint : isInteger n.repr.toList = true := by
      unfold isInteger
      simp only [hm, if_false, Bool.and_eq_true, Bool.not_eq_true', List.isEmpty_eq_false_iff, List.all_eq_true]
      exact hr
    simp only [Pred.toks, predicateOf, Pred.op, hint, if_true, indexPred, hm, hv, false_or]
    rw [if_neg (by omega)]
  | fromLast n =>
    have hr := xp_repr n
    by_cases hn : n = 0
    · subst hn; simp [Pred.toks, predicateOf, Pred.op]
    · have hint : isInteger ('-' :: n.repr.toList) = true := by
        unfold isInteger
        simp only [List.head?_cons, if_true, List.drop_succ_cons, List.drop_zero, Bool.and_eq_true, Bool.not_eq_true',
          List.isEmpty_eq_false_iff, List.all_eq_true]
        exact hr
      simp only [Pred.toks, hn, if_false, predicateOf, if_true, offsetPred, hint, List.head?_cons, List.drop_succ_cons,
        List.drop_zero, xp_value_repr, Pred.op]
      simp [hn]
  | _ => rfl

theorem xp_brackets : ∀ {ts : List XTok} (seen rest : List XTok), (∀ t ∈ ts, t ≠ .bad ∧ t ≠ .space ∧ t ≠ .sym ']') →
    compilePath (.brackets seen) (ts ++ .sym ']' :: rest) = (do
      let p ← predicateOf (seen.reverse ++ ts)
      .ok (.pred p :: (← compilePath .after rest)))
  | [], seen, rest, _ => by simp [compilePath]
  | t :: ts, seen, rest, h => by
    obtain ⟨h1, h2, h3⟩ := h t (by simp)
    rw [List.cons_append, compilePath, xp_brackets (t :: seen) rest fun x hx => h x (by simp [hx])]
    · simp
    · exact h1
    · exact h3
    · exact h2

theorem xp_toks_fine {p : Pred} : ∀ t ∈ p.toks, t ≠ .bad ∧ t ≠ .space ∧ t ≠ .sym ']' := by
  intro t ht
  cases p <;> simp only [Pred.toks, List.mem_cons, List.not_mem_nil, or_false] at ht
  case fromLast n =>
    by_cases hn : n = 0
    · simp only [hn, if_true, List.not_mem_nil, or_false] at ht
      rcases ht with rfl | rfl <;> simp
    · simp only [hn, if_false, List.mem_cons, List.not_mem_nil, or_false] at ht
      rcases ht with rfl | rfl | rfl <;> simp
  all_goals
    first
      | (subst ht; simp)
      | (rcases ht with rfl | rfl <;> simp)
      | (rcases ht with rfl | rfl | rfl <;> simp)
      | (rcases ht with rfl | rfl | rfl | rfl <;> simp)

theorem xp_compile_preds : ∀ {ps : List Pred}, (∀ p ∈ ps, p.Ok) → ∀ {ts : List XTok},
    compilePath .after (ps.flatMap Pred.allToks ++ ts) =
      (compilePath .after ts).map (ps.map (fun p => .pred p.op) ++ ·)
  | [], _, ts => by
    simp only [List.flatMap_nil, List.nil_append, List.map_nil]
    cases compilePath .after ts <;> rfl
  | p :: ps, hp, ts => by
    have ih := xp_compile_preds (ps := ps) (fun x hx => hp x (by simp [hx])) (ts := ts)
    have e : (p :: ps).flatMap Pred.allToks ++ ts = .sym '[' :: (p.toks ++ .sym ']' :: (ps.flatMap Pred.allToks ++ ts)) := by
      simp [Pred.allToks]
    rw [e, show ∀ l, compilePath .after (.sym '[' :: l) = compilePath (.brackets []) l from fun l => by simp [compilePath],
      xp_brackets [] _ xp_toks_fine, ih, List.reverse_nil, List.nil_append, xp_predicate (hp p (by simp))]
    cases compilePath .after ts <;> rfl

theorem xp_compile_step {s : Step} (h : s.Ok) {ts : List XTok} :
    compilePath .after (s.toks ++ ts) = (compilePath .after ts).map (s.ops ++ ·) := by
  cases s with
  | child n ps =>
    have hp := xp_compile_preds h.2.1 (ts := ts)
    simp only [Step.toks, Step.ops, List.cons_append]
    cases n <;> simp only [NameTest.tok, NameTest.childOp] <;>
      simp only [compilePath, hp] <;> cases compilePath .after ts <;> simp [bind, Except.bind, Except.map]
  | deep n ps =>
    have hp := xp_compile_preds h.2.1 (ts := ts)
    simp only [Step.toks, Step.ops, List.cons_append]
    cases n <;> simp only [NameTest.tok, NameTest.deepOp] <;>
      simp only [compilePath, hp] <;> cases compilePath .after ts <;> simp [bind, Except.bind, Except.map]
  | self => simp only [Step.toks, Step.ops, List.cons_append, List.nil_append, compilePath]; cases compilePath .after ts <;> rfl
  | parent => simp only [Step.toks, Step.ops, List.cons_append, List.nil_append, compilePath]; cases compilePath .after ts <;> rfl

theorem xp_compile_path : ∀ {ss : List Step}, PathOk ss → ∀ {ts : List XTok},
    compilePath .after (ss.flatMap Step.toks ++ ts) = (compilePath .after ts).map (ss.flatMap Step.ops ++ ·)
  | [], _, ts => by
    simp only [List.flatMap_nil, List.nil_append]
    cases compilePath .after ts <;> rfl
  | s :: ss, h, ts => by
    rw [List.flatMap_cons, List.append_assoc, xp_compile_step (h s (by simp)), xp_compile_path fun x hx => h x (by simp [hx])]
    cases compilePath .after ts with
    | error => rfl
    | ok o => simp [Except.map]

theorem xp_not_missing {ss : List Step} : XOp.missing ∉ ss.flatMap Step.ops := by
  rw [List.mem_flatMap]
  rintro ⟨s, -, hs⟩
  cases s with
  | child n ps =>
    simp only [Step.ops, List.mem_cons, List.mem_map] at hs
    rcases hs with h | ⟨p, _, h⟩
    · cases n <;> cases h
    · cases h
  | deep n ps =>
    simp only [Step.ops, List.mem_cons, List.mem_map] at hs
    rcases hs with h | ⟨p, _, h⟩
    · cases n <;> cases h
    · cases h
  | self => simp [Step.ops] at hs
  | parent => simp [Step.ops] at hs

/-! ## Whole paths -/

theorem xp_test_last {n : NameTest} (h : n.Ok) : n.text.getLast? ≠ some '/' := by
  intro hl
  have key : ∀ t : Chars, t ≠ [] → (∀ d ∈ t, isPathChar d = true) → t.getLast? ≠ some '/' := by
    intro t _ ht hh
    exact absurd (ht _ (List.mem_of_getLast? hh)) (by decide)
  have tail : ∀ (a b : Chars), b ≠ [] → (a ++ b).getLast? = some '/' → b.getLast? = some '/' := by
    intro a b hb hh
    rw [List.getLast?_append] at hh
    cases hg : b.getLast? with
    | none => simp [List.getLast?_eq_none_iff] at hg; exact absurd hg hb
    | some x => rw [hg] at hh; simpa using hh
  cases n with
  | any => simp [NameTest.text] at hl
  | tag t =>
    rcases h with h | ⟨ns, name, rfl, -, h⟩
    · exact key _ (xp_plain_path h).1 (xp_plain_path h).2 hl
    · have : ('{' :: ns ++ '}' :: name) = ('{' :: ns ++ ['}']) ++ name := by simp
      simp only [NameTest.text] at hl
      rw [this] at hl
      exact key _ (xp_plain_path h).1 (xp_plain_path h).2 (tail _ _ (xp_plain_path h).1 hl)
  | inAny name =>
    exact key _ (xp_plain_path h).1 (xp_plain_path h).2 (tail _ _ (xp_plain_path h).1 hl)
  | allIn ns =>
    have := tail _ _ (by simp) hl
    simp at this

theorem xp_preds_last {ps : List Pred} {a : Chars} (h : a.getLast? ≠ some '/') :
    (a ++ ps.flatMap Pred.text).getLast? ≠ some '/' := by
  rcases List.eq_nil_or_concat ps with rfl | ⟨qs, p, rfl⟩
  · simpa using h
  · simp only [List.concat_eq_append, List.flatMap_append, List.flatMap_cons, List.flatMap_nil, List.append_nil, Pred.text]
    rw [← List.append_assoc, ← List.append_assoc, List.getLast?_append]
    simp

theorem xp_step_last {s : Step} (h : s.Ok) : s.text.getLast? ≠ some '/' := by
  have key : ∀ (a b : Chars), b ≠ [] → b.getLast? ≠ some '/' → (a ++ b).getLast? ≠ some '/' := by
    intro a b hne hb
    rw [List.getLast?_append]
    cases hg : b.getLast? with
    | none => simp [List.getLast?_eq_none_iff] at hg; exact absurd hg hne
    | some x => rw [hg] at hb; simpa using hb
  have hne : ∀ {n : NameTest}, n.Ok → n.text ≠ [] := by
    intro n hn; obtain ⟨c, cs, e, -⟩ := xp_test_head hn; simp [e]
  cases s with
  | child n ps => exact xp_preds_last (key _ _ (hne h.1) (xp_test_last h.1))
  | deep n ps => exact xp_preds_last (key _ _ (hne h.1) (xp_test_last h.1))
  | self => simp [Step.text]
  | parent => simp [Step.text]

theorem xp_path_last {ss : List Step} (h : PathOk ss) {a : Chars} (ha : a.getLast? ≠ some '/') :
    (a ++ ss.flatMap Step.text).getLast? ≠ some '/' := by
  rcases List.eq_nil_or_concat ss with rfl | ⟨qs, s, rfl⟩
  · simpa using ha
  · have hs := xp_step_last (h s (by simp))
    have hne : s.text ≠ [] := by obtain ⟨cs, e⟩ := xp_step_slash s; simp [e]
    simp only [List.concat_eq_append, List.flatMap_append, List.flatMap_cons, List.flatMap_nil, List.append_nil]
    rw [← List.append_assoc, List.getLast?_append]
    cases hg : s.text.getLast? with
    | none => simp [List.getLast?_eq_none_iff] at hg; exact absurd hg hne
    | some x => rw [hg] at hs; simpa using hs

/-- What happens to a path that starts like this one. -/
theorem xp_findall_start (root : PElem) {ss : List Step} (h : PathOk ss) {rest : Chars} (hr : SlashOrEnd rest)
    (hne : ss.flatMap Step.text ++ rest ≠ []) (hl : rest.getLast? ≠ some '/') :
    findall root ('.' :: (ss.flatMap Step.text ++ rest)) = (do
      let ops ← compilePath .after (xtokens rest)
      if .missing ∈ ops then .error .typeError
      else .ok (ops.foldl (XOp.select root) ((ss.flatMap Step.ops).foldl (XOp.select root) [[]]))) := by
  have hlast : ('.' :: (ss.flatMap Step.text ++ rest)).getLast? ≠ some '/' := by
    rw [← List.cons_append, List.getLast?_append]
    cases hg : rest.getLast? with
    | none =>
      simp only [Option.none_or]
      exact xp_path_last (a := ['.']) h (by simp)
    | some c => rw [hg] at hl; simpa using hl
  have hslash : ∃ cs, ss.flatMap Step.text ++ rest = '/' :: cs := (xp_path_slash_append ss hr).resolve_left hne
  have hdot : (ss.flatMap Step.text ++ rest).head? ≠ some '.' := by
    obtain ⟨cs, e⟩ := hslash; simp [e]
  have htok : xtokens ('.' :: (ss.flatMap Step.text ++ rest)) = .dot :: (ss.flatMap Step.toks ++ xtokens rest) := by
    rw [xp_tokens_dot hdot, xp_toks_path h hr]
  have hpath : isPath ('.' :: (ss.flatMap Step.text ++ rest)) = true := by
    simp [isPath, hasPathChar]
  unfold findall
  rw [hpath, if_pos rfl]
  unfold etreeFindall
  simp only [hlast, if_false, htok]
  have hc : compilePath .op (.dot :: (ss.flatMap Step.toks ++ xtokens rest)) =
      (compilePath .after (xtokens rest)).map (.self :: ss.flatMap Step.ops ++ ·) := by
    simp only [compilePath, xp_compile_path h]
    cases compilePath .after (xtokens rest) <;> rfl
  rw [if_neg (by simp), if_neg (by simp), hc]
  cases compilePath .after (xtokens rest) with
  | error => rfl
  | ok o =>
    have hm : XOp.missing ∈ XOp.self :: ss.flatMap Step.ops ++ o ↔ XOp.missing ∈ o := by
      rw [List.mem_append]
      refine ⟨fun hx => hx.resolve_left fun hx => ?_, .inr⟩
      rcases List.mem_cons.1 hx with hx | hx
      · cases hx
      · exact xp_not_missing hx
    simp only [Except.map, bind, Except.bind, hm, List.foldl_append, List.foldl_cons, XOp.select]

/-- What a path with a leading slash is compiled to. -/
theorem xp_findall_absolute (root : PElem) {ss : List Step} (h : PathOk ss) (hne : ss ≠ []) :
    findall root ('.' :: ss.flatMap Step.text) = .ok ((ss.flatMap Step.ops).foldl (XOp.select root) [[]]) := by
  have := xp_findall_start root h (rest := []) (.inl rfl) (by
    cases ss with
    | nil => exact absurd rfl hne
    | cons s ss => obtain ⟨cs, e⟩ := xp_step_slash s; simp [e]) (by simp)
  rw [List.append_nil] at this
  rw [this]
  rfl

/-! ## Paths and tags -/

theorem xp_hasPath_plain : ∀ {x rest : Chars}, (∀ d ∈ x, d ≠ '{' ∧ d ≠ '}') → hasPathChar true rest = true →
    hasPathChar true (x ++ rest) = true
  | [], _, _, h => h
  | c :: cs, rest, hx, h => by
    have hc := hx c (by simp)
    rw [List.cons_append, hasPathChar, if_neg hc.1, if_neg hc.2]
    split
    · rfl
    · exact xp_hasPath_plain (fun d hd => hx d (by simp [hd])) h

theorem xp_hasPath_ns : ∀ {ns rest : Chars}, '}' ∉ ns → hasPathChar false (ns ++ rest) = hasPathChar false rest
  | [], _, _ => rfl
  | c :: cs, rest, hx => by
    have hc : c ≠ '}' := by rintro rfl; simp at hx
    have ih := xp_hasPath_ns (ns := cs) (rest := rest) fun h => hx (by simp [h])
    rw [List.cons_append, hasPathChar]
    split
    · exact ih
    · simp only [hc, if_false, Bool.false_and, Bool.false_eq_true]; exact ih

theorem xp_hasPath_brace {ns rest : Chars} (h : '}' ∉ ns) :
    hasPathChar true ('{' :: (ns ++ '}' :: rest)) = hasPathChar true rest := by
  rw [hasPathChar, if_pos rfl, xp_hasPath_ns h, hasPathChar, if_neg (by decide), if_pos rfl]

theorem xp_plain_braces {t : Chars} (h : PlainName t) : ∀ d ∈ t, d ≠ '{' ∧ d ≠ '}' := by
  obtain ⟨c, cs, rfl, hc, hcs⟩ := h
  intro d hd
  have : NameChar d := by
    rcases List.mem_cons.1 hd with rfl | hd
    · exact .inl hc
    · exact hcs d hd
  exact ⟨xp_nameChar_ne this (by decide), xp_nameChar_ne this (by decide)⟩

theorem xp_isPath_test {n : NameTest} (h : n.Ok) {rest : Chars} (hr : hasPathChar true rest = true) :
    isPath (n.text ++ rest) = true := by
  have key : hasPathChar true (n.text ++ rest) = true → isPath (n.text ++ rest) = true := by
    intro h; simp [isPath, h]
  cases n with
  | any => exact key (by simp [NameTest.text, hasPathChar])
  | tag t =>
    refine key ?_
    rcases h with h | ⟨ns, name, rfl, hn, h⟩
    · exact xp_hasPath_plain (xp_plain_braces h) hr
    · simp only [NameTest.text, List.cons_append, List.append_assoc]
      rw [xp_hasPath_brace hn.2.1]
      exact xp_hasPath_plain (xp_plain_braces h) hr
  | inAny name => simp [isPath, NameTest.text, List.isPrefixOf]
  | allIn ns =>
    refine key ?_
    simp only [NameTest.text, List.cons_append, List.append_assoc, List.nil_append]
    rw [xp_hasPath_brace h.2.1]
    simp [hasPathChar]

/-- A step without its slash, and the rest of the path. -/
theorem xp_findall_relative (root : PElem) {n : NameTest} {ps : List Pred} {ss : List Step}
    (h : PathOk (.child n ps :: ss)) (hp : isPath (n.text ++ ps.flatMap Pred.text ++ ss.flatMap Step.text) = true) :
    findall root (n.text ++ ps.flatMap Pred.text ++ ss.flatMap Step.text) =
      .ok (((Step.child n ps :: ss).flatMap Step.ops).foldl (XOp.select root) [[]]) := by
  have h0 : (Step.child n ps).Ok := h _ (by simp)
  have hss : PathOk ss := fun x hx => h x (by simp [hx])
  have hlast : (n.text ++ ps.flatMap Pred.text ++ ss.flatMap Step.text).getLast? ≠ some '/' :=
    xp_path_last hss (xp_preds_last (xp_test_last h0.1))
  obtain ⟨c, cs, hc, hne⟩ := xp_test_head h0.1
  have hhead : (n.text ++ ps.flatMap Pred.text ++ ss.flatMap Step.text).head? ≠ some '/' := by
    rw [hc]; simpa using hne
  have htok : xtokens (n.text ++ ps.flatMap Pred.text ++ ss.flatMap Step.text) =
      n.tok :: (ps.flatMap Pred.allToks ++ ss.flatMap Step.toks) := by
    have e := xp_toks_path hss (rest := []) (.inl rfl)
    simp only [List.append_nil] at e
    rw [List.append_assoc, xp_toks_test h0.1 (xp_preds_ends (xp_path_slash ss).ends), xp_toks_preds h0.2.1, e]
    simp [xtokens, xtokensFrom]
  unfold findall
  rw [hp, if_pos rfl]
  unfold etreeFindall
  simp only [hlast, hhead, if_false, htok]
  have e1 := xp_compile_path hss (ts := [])
  have e2 : compilePath .after ([] : List XTok) = .ok [] := rfl
  rw [e2, List.append_nil] at e1
  have hcomp : compilePath .op (n.tok :: (ps.flatMap Pred.allToks ++ ss.flatMap Step.toks)) =
      .ok ((Step.child n ps :: ss).flatMap Step.ops) := by
    cases n <;> simp [NameTest.tok, compilePath, xp_compile_preds h0.2.1, e1, Except.map, bind, Except.bind, Step.ops,
      NameTest.childOp]
  rw [if_neg (by simp), hcomp]
  simp only [bind, Except.bind, xp_not_missing, if_false]

end Xacml
