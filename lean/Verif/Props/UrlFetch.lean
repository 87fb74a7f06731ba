import Verif.Spec.UrlFetch
import Verif.Lemmas.Split
import Verif.Lemmas.PrettyPrint

/-!
# C84: documents are fetched without a proxy from the hosts in no_proxy
-/
namespace Xacml
open Spec

private theorem takeWhile_stop {p : Char → Bool} {a b : Chars} (ha : ∀ c ∈ a, p c = true)
    (hb : ∀ c l, b = c :: l → p c = false) : (a ++ b).takeWhile p = a := by
  induction a with
  | nil =>
    cases b with
    | nil => rfl
    | cons c b => simp [List.takeWhile_cons, hb c b rfl]
  | cons c a ih =>
    rw [List.cons_append, List.takeWhile_cons, if_pos (ha c (by simp)), ih fun c hc => ha c (by simp [hc])]

private theorem dropWhile_stop {p : Char → Bool} {a b : Chars} (ha : ∀ c ∈ a, p c = true)
    (hb : ∀ c l, b = c :: l → p c = false) : (a ++ b).dropWhile p = b := by
  rw [dropWhile_all ha]
  cases b with
  | nil => rfl
  | cons c b => simp [List.dropWhile_cons, hb c b rfl]

private theorem reserved_mem {c : Char} (h : reserved c = false) :
    c ≠ '/' ∧ c ≠ '?' ∧ c ≠ '#' ∧ c ≠ '[' ∧ c ≠ ']' ∧ c ≠ '@' ∧ 32 < c.toNat ∧ isPySpace c = false := by
  simp only [reserved, Bool.or_eq_false_iff, decide_eq_false_iff_not, Nat.not_le] at h
  obtain ⟨⟨h1, h2⟩, h3⟩ := h
  simp only [List.contains_eq_mem, List.mem_cons, List.not_mem_nil, or_false, decide_eq_false_iff_not, not_or] at h1
  obtain ⟨a, b, c, d, e, f⟩ := h1
  exact ⟨a, b, c, d, e, f, h2, h3⟩

private theorem alpha_big {c : Char} (h : c.isAlphanum = true ∨ c ∈ chars% "+-.") : 32 < c.toNat ∧ c ≠ ':' := by
  rcases h with h | h
  · simp only [Char.isAlphanum, Char.isAlpha, Char.isUpper, Char.isLower, Char.isDigit, Bool.or_eq_true,
      Bool.and_eq_true, decide_eq_true_eq, ge_iff_le] at h
    have ht : c.toNat = c.val.toNat := rfl
    constructor
    · rw [ht]
      rcases h with (⟨h, _⟩ | ⟨h, _⟩) | ⟨h, _⟩ <;> (rw [UInt32.le_iff_toNat_le] at h; simp at h; omega)
    · rintro rfl
      revert h; decide
  · simp only [List.mem_cons, List.not_mem_nil, or_false] at h
    rcases h with rfl | rfl | rfl <;> decide

private theorem unsafe_small {c : Char} (h : 32 < c.toNat) : isUrlUnsafe c = false := by
  simp only [isUrlUnsafe, Bool.or_eq_false_iff, beq_eq_false_iff_ne]
  refine ⟨⟨?_, ?_⟩, ?_⟩ <;> (rintro rfl; revert h; decide)

/-- The host and port part of a URL. -/
private def hostport (u : Url) : Chars :=
  (if u.bracketed then ['['] ++ u.host ++ [']'] else u.host) ++ (match u.port with | some p => ':' :: p | none => [])

/-- The user part of a URL. -/
private def userpart (u : Url) : Chars := match u.user with | some i => i ++ ['@'] | none => []

private theorem text_eq (u : Url) : u.text = u.scheme ++ ':' :: '/' :: '/' :: (userpart u ++ hostport u ++ u.rest) := by
  rcases u with ⟨s, us, h, b, p, r⟩
  cases us <;> cases p <;> simp [Url.text, userpart, hostport]

private theorem port_chars {u : Url} (hu : u.Valid) {c : Char} (hc : c ∈ (match u.port with | some p => ':' :: p | none => [])) :
    c = ':' ∨ reserved c = false := by
  cases hp : u.port with
  | none => rw [hp] at hc; cases hc
  | some p =>
    rw [hp] at hc
    rcases List.mem_cons.1 hc with rfl | hc
    · exact .inl rfl
    · exact .inr (hu.port p hp c hc)

private theorem host_chars {u : Url} (hu : u.Valid) {c : Char} (hc : c ∈ hostport u) :
    c = '[' ∨ c = ']' ∨ c = ':' ∨ reserved c = false := by
  simp only [hostport, List.mem_append] at hc
  rcases hc with hc | hc
  · split at hc
    · simp only [List.mem_append, List.mem_cons, List.not_mem_nil, or_false] at hc
      rcases hc with (rfl | hc) | rfl
      · exact .inl rfl
      · exact .inr (.inr (.inr (hu.host c hc).1))
      · exact .inr (.inl rfl)
    · exact .inr (.inr (.inr (hu.host c hc).1))
  · exact .inr (.inr (port_chars hu hc))

private theorem user_chars {u : Url} (hu : u.Valid) {c : Char} (hc : c ∈ userpart u) : c = '@' ∨ reserved c = false := by
  unfold userpart at hc
  cases h : u.user with
  | none => rw [h] at hc; cases hc
  | some i =>
    rw [h] at hc
    simp only [List.mem_append, List.mem_cons, List.not_mem_nil, or_false] at hc
    rcases hc with hc | rfl
    · exact .inr (hu.user i h c hc)
    · exact .inl rfl

private theorem netloc_eq {u : Url} (hu : u.Valid) : urlNetloc u.text = userpart u ++ hostport u := by
  have hmid : ∀ c ∈ userpart u ++ hostport u, isUrlUnsafe c = false ∧ isNetlocEnd c = false := by
    intro c hc
    rcases List.mem_append.1 hc with hc | hc
    · rcases user_chars hu hc with rfl | h
      · decide
      · obtain ⟨a, b, c', _, _, _, h2, _⟩ := reserved_mem h
        exact ⟨unsafe_small h2, by simp [isNetlocEnd, a, b, c']⟩
    · rcases host_chars hu hc with rfl | rfl | rfl | h
      · decide
      · decide
      · decide
      · obtain ⟨a, b, c', _, _, _, h2, _⟩ := reserved_mem h
        exact ⟨unsafe_small h2, by simp [isNetlocEnd, a, b, c']⟩
  have hdrop : u.text.dropWhile (fun c => decide (c.toNat ≤ 32)) = u.text := by
    obtain ⟨c, l, hs, ha⟩ := hu.scheme_start
    have hc := (alpha_big (hu.scheme c (by simp [hs]))).1
    rw [text_eq, hs, List.cons_append, List.dropWhile_cons, if_neg (by simp; omega)]
  have hfilter : u.text.filter (fun c => !isUrlUnsafe c) =
      u.scheme ++ ':' :: '/' :: '/' :: (userpart u ++ hostport u ++ u.rest.filter fun c => !isUrlUnsafe c) := by
    have h1 : u.scheme.filter (fun c => !isUrlUnsafe c) = u.scheme :=
      List.filter_eq_self.2 fun c hc => by simp [unsafe_small (alpha_big (hu.scheme c hc)).1]
    have h2 : (userpart u ++ hostport u).filter (fun c => !isUrlUnsafe c) = userpart u ++ hostport u :=
      List.filter_eq_self.2 fun c hc => by simp [(hmid c hc).1]
    have hd : isUrlUnsafe ':' = false ∧ isUrlUnsafe '/' = false := by decide
    rw [text_eq, List.filter_append, h1, List.filter_cons_of_pos (by simp [hd]), List.filter_cons_of_pos (by simp [hd]),
      List.filter_cons_of_pos (by simp [hd]), List.filter_append, h2]
  have hscheme : (u.scheme ++ ':' :: '/' :: '/' :: (userpart u ++ hostport u ++ u.rest.filter fun c => !isUrlUnsafe c)).takeWhile
      (· != ':') = u.scheme :=
    takeWhile_stop (fun c hc => by simp [(alpha_big (hu.scheme c hc)).2]) (fun c l h => by simp at h; simp [← h.1])
  unfold urlNetloc
  simp only [hdrop, hfilter, hscheme]
  have hc : (u.scheme.head?.map Char.isAlpha).getD false = true := by
    obtain ⟨c, l, hs, ha⟩ := hu.scheme_start
    simp [hs, ha]
  have hall : u.scheme.all isSchemeChar = true := by
    rw [List.all_eq_true]
    intro c hc
    rcases hu.scheme c hc with h | h
    · simp [isSchemeChar, h]
    · simp only [List.mem_cons, List.not_mem_nil, or_false] at h
      rcases h with rfl | rfl | rfl <;> decide
  have hcont : (u.scheme ++ ':' :: '/' :: '/' :: (userpart u ++ hostport u ++ u.rest.filter fun c => !isUrlUnsafe c)).contains
      ':' = true := by simp
  have hd : (u.scheme ++ ':' :: '/' :: '/' :: (userpart u ++ hostport u ++ u.rest.filter fun c => !isUrlUnsafe c)).drop
      (u.scheme.length + 1) = '/' :: '/' :: (userpart u ++ hostport u ++ u.rest.filter fun c => !isUrlUnsafe c) := by
    rw [List.drop_append]; simp
  simp only [hcont, hc, hall, Bool.and_self, if_true, hd]
  rw [if_pos (by simp [List.isPrefixOf]), List.drop_succ_cons, List.drop_succ_cons, List.drop_zero]
  refine takeWhile_stop (fun c hc => by simp [(hmid c hc).2]) ?_
  intro c l h
  rcases hu.rest with h' | ⟨c', l', h', hm⟩
  · rw [h'] at h; cases h
  · have hk : isUrlUnsafe c' = false ∧ isNetlocEnd c' = true := by
      simp only [List.mem_cons, List.not_mem_nil, or_false] at hm
      rcases hm with rfl | rfl | rfl <;> decide
    rw [h', List.filter_cons_of_pos (by simp [hk.1])] at h
    simp only [List.cons.injEq] at h
    rw [← h.1]; simp [hk.2]

private theorem hostname_eq {u : Url} (hu : u.Valid) : urlHostname u.text = .ok (some (strLower u.host)) := by
  have hport : ∀ c ∈ (match u.port with | some p => ':' :: p | none => [] : Chars), c ≠ '[' ∧ c ≠ ']' := by
    intro c hc
    rcases port_chars hu hc with rfl | h
    · decide
    · exact ⟨(reserved_mem h).2.2.2.1, (reserved_mem h).2.2.2.2.1⟩
  have huser : ∀ c ∈ userpart u, c ≠ '[' ∧ c ≠ ']' := by
    intro c hc
    rcases user_chars hu hc with rfl | h
    · decide
    · exact ⟨(reserved_mem h).2.2.2.1, (reserved_mem h).2.2.2.2.1⟩
  have hhost : ∀ c ∈ u.host, c ≠ '[' ∧ c ≠ ']' := fun c hc =>
    ⟨(reserved_mem (hu.host c hc).1).2.2.2.1, (reserved_mem (hu.host c hc).1).2.2.2.2.1⟩
  have hopen : '[' ∈ hostport u ↔ u.bracketed = true := by
    unfold hostport
    cases u.bracketed
    · simp only [Bool.false_eq_true, if_false, List.mem_append, iff_false, not_or]
      exact ⟨fun h => (hhost _ h).1 rfl, fun h => (hport _ h).1 rfl⟩
    · simp
  have hclose : ']' ∈ hostport u ↔ u.bracketed = true := by
    unfold hostport
    cases u.bracketed
    · simp only [Bool.false_eq_true, if_false, List.mem_append, iff_false, not_or]
      exact ⟨fun h => (hhost _ h).2 rfl, fun h => (hport _ h).2 rfl⟩
    · simp
  have hinfo : ((userpart u ++ hostport u).reverse.takeWhile (· != '@')).reverse = hostport u := by
    rw [List.reverse_append, takeWhile_stop, List.reverse_reverse]
    · intro c hc
      rcases host_chars hu (List.mem_reverse.1 hc) with rfl | rfl | rfl | h
      · decide
      · decide
      · decide
      · simp [(reserved_mem h).2.2.2.2.2.1]
    · intro c l h
      unfold userpart at h
      cases h' : u.user with
      | none => rw [h'] at h; cases h
      | some i => rw [h'] at h; simp at h; simp [← h.1]
  unfold urlHostname
  rw [netloc_eq hu]
  simp only [hinfo]
  have hb : ((userpart u ++ hostport u).contains '[' != (userpart u ++ hostport u).contains ']') = false := by
    have h1 : '[' ∉ userpart u := fun h => (huser _ h).1 rfl
    have h2 : ']' ∉ userpart u := fun h => (huser _ h).2 rfl
    have : ('[' ∈ hostport u) ↔ (']' ∈ hostport u) := hopen.trans hclose.symm
    simp [h1, h2, this]
  rw [if_neg (by rw [hb]; simp)]
  have hh : (if (hostport u).contains '[' then (((hostport u).dropWhile (· != '[')).drop 1).takeWhile (· != ']')
      else (hostport u).takeWhile (· != ':')) = u.host := by
    cases hbr : u.bracketed with
    | true =>
      rw [if_pos (by simpa using hopen.2 hbr)]
      simp only [hostport, hbr, if_true, List.cons_append, List.nil_append, List.append_assoc]
      rw [List.dropWhile_cons, if_neg (by simp), List.drop_one, List.tail_cons]
      exact takeWhile_stop (fun c hc => by simp [(hhost c hc).2]) (fun c l h => by simp at h; simp [← h.1])
    | false =>
      rw [if_neg (by simp [hopen, hbr])]
      simp only [hostport, hbr, Bool.false_eq_true, if_false]
      refine takeWhile_stop (fun c hc => ?_) (fun c l h => ?_)
      · have : c ≠ ':' := by rintro rfl; exact hu.host_colon hbr hc
        simp [this]
      · cases hp : u.port with
        | none => rw [hp] at h; cases h
        | some p => rw [hp] at h; simp at h; simp [← h.1]
  rw [hh, if_neg (by simpa using hu.host_some)]
  have hp : ∀ c ∈ u.host, (c != '%') = true := fun c hc => by simp [(hu.host c hc).2]
  have ht : u.host.takeWhile (· != '%') = u.host := by
    have := takeWhile_stop hp (b := []) (fun c l h => by cases h); simpa using this
  have hdr : u.host.dropWhile (· != '%') = [] := by
    have := dropWhile_stop hp (b := []) (fun c l h => by cases h); simpa using this
  rw [ht, hdr, List.append_nil]

/-! ## Lists of hosts -/

private theorem mem_takeWhile {p : Char → Bool} {c : Char} {l : Chars} (h : c ∈ l.takeWhile p) : p c = true := by
  induction l with
  | nil => cases h
  | cons d l ih =>
    rw [List.takeWhile_cons] at h
    split at h
    · rcases List.mem_cons.1 h with rfl | h
      · assumption
      · exact ih h
    · cases h

private theorem split_at {d : Char} : ∀ {x r : List Char}, d ∉ x → strSplit [d] (x ++ d :: r) = x :: strSplit [d] r
  | [], r, _ => split_sep (sep := [d]) (by simp)
  | c :: x, r, h => by
    simp only [List.mem_cons, not_or] at h
    have : ¬ [d] <+: c :: (x ++ d :: r) := by
      rintro ⟨s, hs⟩
      simp only [List.cons_append, List.nil_append, List.cons.injEq] at hs
      exact h.1 hs.1
    obtain ⟨p, ps, h1, h2⟩ := split_cons this
    rw [split_at h.2] at h1
    injection h1 with h1 h1'
    subst h1 h1'
    exact h2

private theorem split_none {d : Char} : ∀ {x : List Char}, d ∉ x → strSplit [d] x = [x]
  | [], _ => split_nil _
  | c :: x, h => by
    simp only [List.mem_cons, not_or] at h
    have : ¬ [d] <+: c :: x := by
      rintro ⟨s, hs⟩
      simp only [List.cons_append, List.nil_append, List.cons.injEq] at hs
      exact h.1 hs.1
    obtain ⟨p, ps, h1, h2⟩ := split_cons this
    rw [split_none h.2] at h1
    injection h1 with h1 h1'
    subst h1 h1'
    exact h2

private theorem strip_around {h pre post : Chars} (hh : ∀ c ∈ h, isPySpace c = false) (h1 : ∀ c ∈ pre, isPySpace c = true)
    (h2 : ∀ c ∈ post, isPySpace c = true) (hne : h ≠ []) : stripChars (pre ++ h ++ post) = h := by
  obtain ⟨c, l, rfl⟩ : ∃ c l, h = c :: l := by cases h with | nil => exact absurd rfl hne | cons c l => exact ⟨c, l, rfl⟩
  rw [stripChars, List.append_assoc, dropWhile_all h1, List.cons_append, List.dropWhile_cons, if_neg (by simp [hh c]),
    ← List.cons_append, List.reverse_append, dropWhile_stop (fun c hc => h2 c (List.mem_reverse.1 hc)), List.reverse_reverse]
  intro d m hd
  exact hh d (List.mem_reverse.1 (by rw [hd]; simp))

private theorem strip_parts (e : Chars) : ∃ pre post, e = pre ++ stripChars e ++ post ∧ (∀ c ∈ pre, isPySpace c = true) ∧
    ∀ c ∈ post, isPySpace c = true := by
  refine ⟨e.takeWhile isPySpace, ((e.dropWhile isPySpace).reverse.takeWhile isPySpace).reverse, ?_, ?_, ?_⟩
  · rw [stripChars, List.append_assoc, ← List.reverse_append, List.takeWhile_append_dropWhile, List.reverse_reverse,
      List.takeWhile_append_dropWhile]
  · intro c hc
    exact mem_takeWhile hc
  · intro c hc
    exact mem_takeWhile (List.mem_reverse.1 hc)

private theorem split_join : ∀ {l : List Chars}, l ≠ [] → (∀ e ∈ l, ',' ∉ e) → strSplit [','] (strJoin [','] l) = l
  | [], h, _ => absurd rfl h
  | [p], _, h => split_none (h p (by simp))
  | p :: q :: l, _, h => by
    rw [strJoin, List.append_assoc, List.singleton_append, split_at (h p (by simp)),
      split_join (l := q :: l) (by simp) fun e he => h e (List.mem_cons_of_mem _ he)]
    simp

private theorem listed_iff {np : Option Chars} {h : Chars} (hne : h ≠ []) (hh : ∀ c ∈ h, isPySpace c = false) :
    Listed np h ↔ h ∈ (strSplit [','] (np.getD [])).map stripChars := by
  constructor
  · rintro ⟨text, entries, pre, post, rfl, rfl, h1, h2, h3, h4⟩
    rw [Option.getD_some, split_join (by rintro rfl; cases h2) h1, List.mem_map]
    exact ⟨_, h2, strip_around hh h3 h4 hne⟩
  · intro hm
    obtain ⟨e, he, rfl⟩ := List.mem_map.1 hm
    cases np with
    | none =>
      rw [Option.getD_none, split_nil, List.mem_singleton] at he
      subst he
      exact absurd rfl hne
    | some text =>
      obtain ⟨pre, post, h1, h2, h3⟩ := strip_parts e
      refine ⟨text, strSplit [','] text, pre, post, rfl, (join_split (by simp) text).symm, split_pieces text, ?_, h2, h3⟩
      rw [← h1]; exact he

/-! ## The property -/

private theorem lower_space {c : Char} (h : isPySpace c = false) : isPySpace c.toLower = false := by
  by_cases hu : c.val ≥ 'A'.val ∧ c.val ≤ 'Z'.val
  · have hb : ∀ n ∈ List.range' 65 26, isPySpace (Char.ofNat n).toLower = false := by decide
    have hn := hb c.toNat (by
      rw [List.mem_range'_1]
      obtain ⟨h1, h2⟩ := hu
      rw [ge_iff_le, UInt32.le_iff_toNat_le] at h1
      rw [UInt32.le_iff_toNat_le] at h2
      have ht : c.toNat = c.val.toNat := rfl
      have ha : 'A'.val.toNat = 65 := rfl
      have hz : 'Z'.val.toNat = 90 := rfl
      omega)
    rwa [Char.ofNat_toNat] at hn
  · have : c.toLower = c := by unfold Char.toLower; rw [dif_neg hu]
    rw [this]; exact h

private theorem lower_not_upper (c : Char) : c.toLower.isUpper = false := by
  by_cases hu : c.val ≥ 'A'.val ∧ c.val ≤ 'Z'.val
  · have hb : ∀ n ∈ List.range' 65 26, (Char.ofNat n).toLower.isUpper = false := by decide
    have hn := hb c.toNat (by
      rw [List.mem_range'_1]
      obtain ⟨h1, h2⟩ := hu
      rw [ge_iff_le, UInt32.le_iff_toNat_le] at h1
      rw [UInt32.le_iff_toNat_le] at h2
      have ht : c.toNat = c.val.toNat := rfl
      have ha : 'A'.val.toNat = 65 := rfl
      have hz : 'Z'.val.toNat = 90 := rfl
      omega)
    rwa [Char.ofNat_toNat] at hn
  · have : c.toLower = c := by unfold Char.toLower; rw [dif_neg hu]
    rw [this]
    simpa [Char.isUpper] using hu

/-- C84: a document is opened with proxies turned off exactly if the host of its URL, in lower case, is an entry of
no_proxy; whatever the user, port, path, query and fragment in the URL. -/
theorem C84_exempt (w : Web) (np : Option Chars) (u : Url) (hu : u.Valid) :
    ∃ off, (fetchStream w np u.text).2 = [.opened off u.text] ∧ (off = true ↔ Listed np (strLower u.host)) := by
  have hl := listed_iff (np := np) (h := strLower u.host) (lower_ne_nil hu.host_some) (by
    intro c hc
    rcases mem_lower hc with ⟨d, hd, rfl⟩ | h0
    · exact lower_space (reserved_mem (hu.host d hd).1).2.2.2.2.2.2.2
    · clear hc; revert c; decide)
  refine ⟨((strSplit [','] (np.getD [])).map stripChars).any fun n => some (strLower u.host) == some n, ?_, ?_⟩
  · simp only [fetchStream, openUrl, shouldUseProxy, hostname_eq hu, bind, Except.bind, pure, Except.pure, Bool.not_not]
    cases w.opener _ u.text <;> rfl
  · rw [hl, List.any_eq_true]
    constructor
    · rintro ⟨n, hn, he⟩
      simp only [Option.some_beq_some, beq_iff_eq] at he
      rw [he]; exact hn
    · intro h
      exact ⟨_, h, by simp⟩

/-- C84: what is fetched is what the server sends, and the connection is closed. -/
theorem C84_data (w : Web) (np : Option Chars) (url : Chars) (content : Chars) :
    (fetchData w np url).1 = .ok content ↔
      ∃ off, w.opener off url = .response (.ok content) ∧ (fetchData w np url).2 = [.opened off url, .read, .closed] := by
  unfold fetchData openUrl
  cases shouldUseProxy np url with
  | error e => simp
  | ok use =>
    cases h : w.opener (!use) url with
    | response c =>
      cases c with
      | error e => simp [h]
      | ok c =>
        simp only [h, Except.ok.injEq, List.cons_append, List.nil_append, List.cons.injEq, WebEvent.opened.injEq, and_true]
        constructor
        · rintro rfl; exact ⟨!use, h, rfl⟩
        · rintro ⟨off, h1, rfl⟩
          rw [h] at h1
          simpa using h1
    | httpError t => simp [h]
    | fails e => simp [h]

/-- C84: an error status of the server raises an exception with its text. -/
theorem C84_status (w : Web) (np : Option Chars) (u : Url) (hu : u.Valid) (text : Chars)
    (h : ∀ off, w.opener off u.text = .httpError text) :
    (fetchStream w np u.text).1 = .error (.plain text) ∧ (fetchData w np u.text).1 = .error (.plain text) := by
  simp [fetchStream, fetchData, openUrl, shouldUseProxy, hostname_eq hu, bind, Except.bind, pure, Except.pure, h]

/-- C84, violated: when reading fails the connection stays open. -/
theorem C84_violated_closed (w : Web) (np : Option Chars) (u : Url) (hu : u.Valid) (e : Exc)
    (h : ∀ off, w.opener off u.text = .response (.error e)) :
    (fetchData w np u.text).1 = .error (.raised e) ∧ .closed ∉ (fetchData w np u.text).2 := by
  simp [fetchData, openUrl, shouldUseProxy, hostname_eq hu, bind, Except.bind, pure, Except.pure, h]

/-- C84, violated: an entry of no_proxy with a capital letter never has an effect, whatever the host in the URL. -/
theorem C84_violated_case (w : Web) (entry : Chars) (hc : ',' ∉ entry) (hs : stripChars entry = entry)
    (hcap : ∃ c ∈ entry, c.isUpper = true) (u : Url) (hu : u.Valid) :
    (fetchStream w (some entry) u.text).2 = [.opened false u.text] := by
  obtain ⟨off, h, hiff⟩ := C84_exempt w (some entry) u hu
  rw [h]
  have : off ≠ true := by
    intro ht
    have hl := hiff.1 ht
    rw [listed_iff (lower_ne_nil hu.host_some) (by
      intro c hc
      rcases mem_lower hc with ⟨d, hd, rfl⟩ | h0
      · exact lower_space (reserved_mem (hu.host d hd).1).2.2.2.2.2.2.2
      · clear hc; revert c; decide)] at hl
    rw [Option.getD_some, split_none hc, List.map_singleton, hs, List.mem_singleton] at hl
    obtain ⟨c, hm, hup⟩ := hcap
    rw [← hl] at hm
    rcases mem_lower hm with ⟨d, _, rfl⟩ | h0
    · exact absurd hup (by rw [lower_not_upper]; simp)
    · have : ∀ c ∈ ['i', Char.ofNat 0x307, 'k'], c.isUpper = false := by decide
      rw [this c h0] at hup
      cases hup
  simp [this]

/-! ## Non-vacuity -/

private def sampleUrl : Url :=
  { scheme := chars% "http", user := some (chars% "me:pw"), host := chars% "Example.org", bracketed := false,
    port := some (chars% "8080"), rest := chars% "/policy.xml" }

private theorem sample_valid : sampleUrl.Valid where
  scheme_start := ⟨'h', chars% "ttp", rfl, by decide⟩
  scheme := by decide
  user := by rintro i ⟨⟩; decide
  host_some := by decide
  host := by decide
  host_colon := by decide
  port := by rintro p ⟨⟩; decide
  rest := .inr ⟨'/', chars% "policy.xml", rfl, by decide⟩

/-- `http://me:pw@Example.org:8080/policy.xml` with `localhost, example.org`. -/
example (w : Web) : sampleUrl.text = chars% "http://me:pw@Example.org:8080/policy.xml" ∧
    (fetchStream w (some (chars% "localhost, example.org")) sampleUrl.text).2 = [.opened true sampleUrl.text] := by
  refine ⟨by rfl, ?_⟩
  obtain ⟨off, h, hiff⟩ := C84_exempt w (some (chars% "localhost, example.org")) sampleUrl sample_valid
  have : off = true := hiff.2 ⟨_, [chars% "localhost", chars% " example.org"], [' '], [], rfl, by rfl, by decide, by decide,
    by decide, by decide⟩
  rw [h, this]

/-- Other hosts use the proxy. -/
example (w : Web) : (fetchStream w (some (chars% "example.com,org")) sampleUrl.text).2 = [.opened false sampleUrl.text] := by
  obtain ⟨off, h, hiff⟩ := C84_exempt w (some (chars% "example.com,org")) sampleUrl sample_valid
  have : off = false := by
    rw [← Bool.not_eq_true]
    intro ht
    have hl := hiff.1 ht
    rw [listed_iff (by decide) (by decide)] at hl
    revert hl; decide
  rw [h, this]

/-- A capital letter in no_proxy. -/
example (w : Web) : (fetchStream w (some (chars% "Example.org")) sampleUrl.text).2 = [.opened false sampleUrl.text] :=
  C84_violated_case w _ (by decide) (by decide) ⟨'E', by decide, by decide⟩ _ sample_valid

end Xacml
