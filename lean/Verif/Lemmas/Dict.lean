import Verif.Model.Str

/-! # Lemmas on dict operations -/
namespace Xacml
variable {κ α : Type} [BEq κ] [LawfulBEq κ] [DecidableEq κ]

theorem dictGet_set (l : List (κ × α)) (k k' : κ) (v : α) :
    dictGet (dictSet l k v) k' = if k' = k then some v else dictGet l k' := by
  induction l with
  | nil =>
    simp only [dictSet, dictGet, beq_iff_eq]
    by_cases h : k' = k
    · simp [h]
    · simp [h, Ne.symm h]
  | cons p l ih =>
    obtain ⟨a, b⟩ := p
    simp only [dictSet]
    by_cases hk : a = k
    · subst hk
      simp only [beq_self_eq_true, if_true, dictGet, beq_iff_eq]
      by_cases h : k' = a
      · subst h; simp
      · simp [h, Ne.symm h]
    · simp only [beq_iff_eq, hk, if_false, dictGet]
      by_cases h : a = k'
      · subst h; simp [hk]
      · simp [h, ih]

theorem dictGet_erase (l : List (κ × α)) (k k' : κ) :
    dictGet (dictErase l k) k' = if k' = k then none else dictGet l k' := by
  induction l with
  | nil => simp [dictErase, dictGet]
  | cons p l ih =>
    obtain ⟨a, b⟩ := p
    simp only [dictErase]
    by_cases hk : a = k
    · subst hk
      simp only [beq_self_eq_true, if_true, ih, dictGet, beq_iff_eq]
      by_cases h : k' = a
      · simp [h]
      · simp [h, Ne.symm h]
    · simp only [beq_iff_eq, hk, if_false, dictGet]
      by_cases h : a = k'
      · subst h; simp [hk]
      · simp [h, ih]

end Xacml
