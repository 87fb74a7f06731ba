import Verif.Model.FunctionMap

/-!
# Lemmas about splitting strings
-/
namespace Xacml

theorem splitAux_cur (sep : List Char) : ∀ (s : List Char) (k : Nat) (cur : List Char),
    strSplitAux sep s k cur = match strSplitAux sep s k [] with
      | [] => []
      | p :: ps => (cur.reverse ++ p) :: ps
  | [], _, cur => by simp [strSplitAux]
  | _ :: cs, k + 1, cur => by simp only [strSplitAux]; exact splitAux_cur sep cs k cur
  | c :: cs, 0, cur => by
    simp only [strSplitAux]
    split
    · simp
    · rw [splitAux_cur sep cs 0 (c :: cur), splitAux_cur sep cs 0 [c]]
      cases strSplitAux sep cs 0 [] <;> simp

theorem splitAux_ne (sep : List Char) : ∀ (s : List Char) (k : Nat) (cur : List Char), strSplitAux sep s k cur ≠ []
  | [], _, cur => by simp [strSplitAux]
  | _ :: cs, k + 1, cur => by simp only [strSplitAux]; exact splitAux_ne sep cs k cur
  | c :: cs, 0, cur => by
    simp only [strSplitAux]
    split
    · simp
    · exact splitAux_ne sep cs 0 _

theorem splitAux_skip (sep : List Char) : ∀ (k : Nat) (s : List Char), strSplitAux sep s k [] = strSplit sep (s.drop k)
  | 0, s => rfl
  | k + 1, [] => by simp [strSplitAux, strSplit]
  | k + 1, c :: cs => by simp only [strSplitAux, List.drop_succ_cons]; exact splitAux_skip sep k cs

theorem split_nil (sep : List Char) : strSplit sep [] = [[]] := rfl

theorem split_sep {sep s : List Char} (h : sep ≠ []) : strSplit sep (sep ++ s) = [] :: strSplit sep s := by
  cases sep with
  | nil => exact absurd rfl h
  | cons c cs =>
    rw [List.cons_append, strSplit, strSplitAux, if_pos]
    · rw [splitAux_skip]; simp
    · rw [List.isPrefixOf_iff_prefix]; exact ⟨s, rfl⟩

theorem split_cons {sep : List Char} {c : Char} {s : List Char} (h : ¬ sep <+: c :: s) :
    ∃ p ps, strSplit sep s = p :: ps ∧ strSplit sep (c :: s) = (c :: p) :: ps := by
  have hne : strSplitAux sep s 0 [] ≠ [] := splitAux_ne _ _ _ _
  rcases hp : strSplitAux sep s 0 [] with _ | ⟨p, ps⟩
  · exact absurd hp hne
  · refine ⟨p, ps, hp, ?_⟩
    rw [strSplit, strSplitAux, if_neg (by rwa [List.isPrefixOf_iff_prefix]), splitAux_cur, hp]
    rfl

theorem split_ne (sep s : List Char) : strSplit sep s ≠ [] := splitAux_ne _ _ _ _

/-- Joining undoes splitting. -/
theorem join_split {sep : List Char} (hs : sep ≠ []) (s : List Char) : strJoin sep (strSplit sep s) = s := by
  generalize hn : s.length = n
  induction n using Nat.strongRecOn generalizing s with
  | _ n ih =>
    cases s with
    | nil => rfl
    | cons c s =>
      by_cases h : sep <+: c :: s
      · obtain ⟨r, hr⟩ := h
        have hlen : r.length < n := by
          have := congrArg List.length hr
          have : sep.length ≠ 0 := by simpa using hs
          simp only [List.length_append, List.length_cons] at *
          omega
        rw [← hr, split_sep hs]
        rcases hq : strSplit sep r with _ | ⟨q, qs⟩
        · exact absurd hq (split_ne _ _)
        · rw [strJoin, ← hq, ih _ hlen r rfl]
          · simp
          · simp
      · obtain ⟨p, ps, h1, h2⟩ := split_cons h
        have := ih s.length (by simp at hn; omega) s rfl
        rw [h1] at this
        rw [h2]
        cases ps with
        | nil => simp only [strJoin] at this ⊢; rw [this]
        | cons q qs => simp only [strJoin] at this ⊢; simpa using this

/-- The first piece is followed by nothing or by the separator. -/
theorem split_head {sep : List Char} (s : List Char) :
    (strSplit sep s).headD [] = s ∨ ∃ r, s = (strSplit sep s).headD [] ++ sep ++ r := by
  induction s with
  | nil => exact .inl rfl
  | cons c s ih =>
    by_cases h : sep <+: c :: s
    · obtain ⟨r, hr⟩ := h
      right
      by_cases hs : sep = []
      · subst hs
        have : (strSplit [] (c :: s)).headD [] = [] := by simp [strSplit, strSplitAux]
        exact ⟨c :: s, by rw [this]; rfl⟩
      · refine ⟨r, ?_⟩
        rw [← hr, split_sep hs]; rfl
    · obtain ⟨p, ps, h1, h2⟩ := split_cons h
      rw [h1] at ih
      rw [h2]
      rcases ih with ih | ⟨r, ih⟩
      · left; simpa using ih
      · right; exact ⟨r, by simpa using ih⟩

/-- The last piece comes after nothing or after the separator. -/
theorem split_last {sep : List Char} (hs : sep ≠ []) (s : List Char) :
    ∃ pre, s = pre ++ (strSplit sep s).getLastD [] ∧ (pre = [] ∨ ∃ a, pre = a ++ sep) := by
  generalize hn : s.length = n
  induction n using Nat.strongRecOn generalizing s with
  | _ n ih =>
    cases s with
    | nil => exact ⟨[], rfl, .inl rfl⟩
    | cons c s =>
      by_cases h : sep <+: c :: s
      · obtain ⟨r, hr⟩ := h
        have hlen : r.length < n := by
          have := congrArg List.length hr
          have : sep.length ≠ 0 := by simpa using hs
          simp only [List.length_append, List.length_cons] at *
          omega
        obtain ⟨pre, h1, h2⟩ := ih _ hlen r rfl
        have hl : (strSplit sep (c :: s)).getLastD [] = (strSplit sep r).getLastD [] := by
          rw [← hr, split_sep hs]
          rcases hq : strSplit sep r with _ | ⟨q, qs⟩
          · exact absurd hq (split_ne _ _)
          · rfl
        refine ⟨sep ++ pre, by rw [hl, List.append_assoc, ← h1, hr], .inr ?_⟩
        rcases h2 with rfl | ⟨a, rfl⟩
        · exact ⟨[], by simp⟩
        · exact ⟨sep ++ a, by simp⟩
      · obtain ⟨p, ps, h1, h2⟩ := split_cons h
        obtain ⟨pre, h3, h4⟩ := ih s.length (by simp at hn; omega) s rfl
        rw [h1] at h3
        rw [h2]
        cases ps with
        | nil =>
          rcases h4 with rfl | ⟨a, rfl⟩
          · exact ⟨[], by simpa using h3, .inl rfl⟩
          · have : p.length = s.length := by
              have := join_split hs s
              rw [h1] at this
              simp only [strJoin] at this
              rw [this]
            have h5 := congrArg List.length h3
            have : sep.length ≠ 0 := by simpa using hs
            simp at h5
            omega
        | cons q qs =>
          rcases h4 with rfl | ⟨a, rfl⟩
          · exfalso
            have h5 := congrArg List.length h3
            have h6 := congrArg List.length (join_split hs s)
            rw [h1] at h6
            have hge : ∀ (l : List (List Char)), l ≠ [] → (l.getLastD []).length ≤ (strJoin sep l).length := by
              intro l
              induction l with
              | nil => intro h; exact absurd rfl h
              | cons x l ih =>
                intro _
                cases l with
                | nil => simp [strJoin]
                | cons y l =>
                  have := ih (by simp)
                  simp only [strJoin, List.length_append, List.getLastD_cons] at this ⊢
                  omega
            have h7 := hge (q :: qs) (by simp)
            have : sep.length ≠ 0 := by simpa using hs
            simp only [strJoin, List.length_append, List.nil_append, List.getLastD_cons] at h5 h6 h7
            omega
          · exact ⟨c :: (a ++ sep), by simpa using h3, .inr ⟨c :: a, rfl⟩⟩

/-- The pieces of a string split at a character do not hold that character. -/
theorem split_pieces {d : Char} (s : List Char) : ∀ p ∈ strSplit [d] s, d ∉ p := by
  induction s with
  | nil => intro p hp; simp [split_nil] at hp; subst hp; simp
  | cons c s ih =>
    by_cases h : c = d
    · subst h
      intro p hp
      rw [show c :: s = [c] ++ s from rfl, split_sep (by simp)] at hp
      rcases List.mem_cons.1 hp with rfl | hp
      · simp
      · exact ih p hp
    · obtain ⟨p, ps, h1, h2⟩ := split_cons (sep := [d]) (c := c) (s := s) (by
        rintro ⟨r, hr⟩
        simp only [List.singleton_append, List.cons.injEq] at hr
        exact h hr.1.symm)
      intro q hq
      rw [h2] at hq
      rw [h1] at ih
      rcases List.mem_cons.1 hq with rfl | hq
      · have := ih p (by simp)
        simp only [List.mem_cons, not_or]
        exact ⟨fun e => h e.symm, this⟩
      · exact ih q (by simp [hq])

/-! ## Letters -/

theorem toLower_toNat (c : Char) : c.toLower.toNat = if 65 ≤ c.toNat ∧ c.toNat ≤ 90 then c.toNat + 32 else c.toNat := by
  unfold Char.toLower
  have e : (c.val ≥ 'A'.val ∧ c.val ≤ 'Z'.val) ↔ (65 ≤ c.toNat ∧ c.toNat ≤ 90) := by
    simp only [ge_iff_le, UInt32.le_iff_toNat_le]; exact Iff.rfl
  by_cases h : 65 ≤ c.toNat ∧ c.toNat ≤ 90
  · rw [dif_pos (e.2 h), if_pos h]
    show (c.val + ('a'.val - 'A'.val)).toNat = _
    rw [UInt32.toNat_add]
    show (c.toNat + 32) % 2^32 = _
    omega
  · rw [dif_neg (fun h' => h (e.1 h')), if_neg h]

theorem toUpper_toNat (c : Char) : c.toUpper.toNat = if 97 ≤ c.toNat ∧ c.toNat ≤ 122 then c.toNat - 32 else c.toNat := by
  unfold Char.toUpper
  have e : ('a'.val ≤ c.val ∧ c.val ≤ 'z'.val) ↔ (97 ≤ c.toNat ∧ c.toNat ≤ 122) := by
    simp only [UInt32.le_iff_toNat_le]; exact Iff.rfl
  by_cases h : 97 ≤ c.toNat ∧ c.toNat ≤ 122
  · rw [dif_pos (e.2 h), if_pos h]
    show (c.val + ('A'.val - 'a'.val)).toNat = _
    rw [UInt32.toNat_add]
    show (c.toNat + 4294967264) % 2^32 = _
    omega
  · rw [dif_neg (fun h' => h (e.1 h')), if_neg h]

theorem char_toNat_inj {a b : Char} (h : a.toNat = b.toNat) : a = b := Char.toNat_inj.1 h

theorem lower_upper (c : Char) : c.toUpper.toLower = c.toLower := by
  apply char_toNat_inj
  rw [toLower_toNat, toLower_toNat, toUpper_toNat]
  split <;> split <;> (try split) <;> omega

theorem upper_dash {c : Char} (h : c.toUpper = '-') : c = '-' := by
  apply char_toNat_inj
  have := congrArg Char.toNat h
  rw [toUpper_toNat] at this
  have e : '-'.toNat = 45 := rfl
  split at this <;> omega

theorem mem_lower {s : List Char} {c : Char} (h : c ∈ strLower s) :
    (∃ d ∈ s, c = d.toLower) ∨ c ∈ ['i', Char.ofNat 0x307, 'k'] := by
  obtain ⟨d, hd, hc⟩ := List.mem_flatMap.1 h
  unfold lowerChar at hc
  split at hc
  · simp only [List.mem_cons, List.not_mem_nil, or_false] at hc ⊢
    rcases hc with hc | hc <;> simp [hc]
  · split at hc
    · simp only [List.mem_cons, List.not_mem_nil, or_false] at hc ⊢
      simp [hc]
    · simp only [List.mem_cons, List.not_mem_nil, or_false] at hc
      exact .inl ⟨d, hd, hc⟩

theorem lower_ne_nil {s : List Char} (h : s ≠ []) : strLower s ≠ [] := by
  cases s with
  | nil => exact absurd rfl h
  | cons c s =>
    simp only [strLower, List.flatMap_cons, lowerChar]
    split
    · simp
    · split <;> simp

/-- Where the result is plain, `lower` maps ASCII letters only. -/
theorem lower_plain {s m : List Char} (h : strLower s = m) (hi : Char.ofNat 0x307 ∉ m) (hk : 'k' ∉ m) :
    s.map Char.toLower = m := by
  subst h
  induction s with
  | nil => rfl
  | cons c s ih =>
    simp only [strLower, List.flatMap_cons, List.mem_append, not_or] at hi hk ih ⊢
    have e : lowerChar c = [c.toLower] := by
      unfold lowerChar
      split
      · rename_i hc; exact absurd (by simp [lowerChar, hc]) hi.1
      · split
        · rename_i h1 h2; exact absurd (by simp only [lowerChar, h1, h2, if_true, if_false]; simp) hk.1
        · rfl
    rw [List.map_cons, ih hi.2 hk.2, e]
    rfl

theorem lower_of_map {s : List Char} (hs : ∀ c ∈ s, c.toNat < 128) : strLower s = s.map Char.toLower := by
  induction s with
  | nil => rfl
  | cons c s ih =>
    have hc := hs c (by simp)
    have e : lowerChar c = [c.toLower] := by
      unfold lowerChar
      have h1 : c ≠ Char.ofNat 0x130 := by rintro rfl; revert hc; decide
      have h2 : c ≠ Char.ofNat 0x212a := by rintro rfl; revert hc; decide
      rw [if_neg h1, if_neg h2]
    simp only [strLower, List.flatMap_cons, List.map_cons] at ih ⊢
    rw [e, ih fun d hd => hs d (by simp [hd])]
    rfl

theorem special_big : ∀ r ∈ upperSpecial, 128 ≤ r.1.toNat := by decide

theorem upperChar_plain {c : Char} (h : c.toNat < 128) : upperChar c = [c.toUpper] := by
  unfold upperChar
  have : upperSpecial.lookup c = none := by
    rw [List.lookup_eq_none_iff]
    intro r hr
    rw [bne_iff_ne]
    rintro rfl
    have := special_big r hr
    omega
  rw [this]
  rfl

theorem upperChar_cases (c : Char) : (c, upperChar c) ∈ upperSpecial ∨ upperChar c = [c.toUpper] := by
  unfold upperChar
  cases h : upperSpecial.lookup c with
  | none => exact .inr rfl
  | some ds =>
    left
    obtain ⟨l1, l2, hl, -⟩ := List.lookup_eq_some_iff.1 h
    rw [hl]
    simp

end Xacml
