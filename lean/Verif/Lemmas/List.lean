import Verif.Model.Setters

/-!
# Small lemmas on lists
-/
namespace Xacml

/-- Induction over a history: empty, or a history followed by one more event. -/
theorem List.reverseRec' {α} {P : List α → Prop} (h0 : P []) (h1 : ∀ l a, P l → P (l ++ [a])) :
    ∀ l, P l := by
  intro l
  have : ∀ l : List α, P l.reverse := by
    intro l
    induction l with
    | nil => exact h0
    | cons a l ih => rw [List.reverse_cons]; exact h1 _ _ ih
  simpa using this l.reverse

theorem mem_of_lookup {α β} [BEq α] [LawfulBEq α] {l : List (α × β)} {k : α} {v : β} (h : l.lookup k = some v) :
    (k, v) ∈ l := by
  induction l with
  | nil => simp at h
  | cons p l ih =>
    rw [List.lookup] at h
    split at h
    · rename_i hk
      cases h
      rw [eq_of_beq hk]
      exact List.mem_cons_self
    · exact List.mem_cons_of_mem _ (ih h)

theorem dictGet_fromKeys (l : List String) (s : String) :
    dictGet (fromKeys l) s = none ∨ dictGet (fromKeys l) s = some .notImplemented := by
  induction l with
  | nil => exact .inl rfl
  | cons a l ih =>
    simp only [fromKeys, List.map_cons, dictGet]
    split
    · exact .inr rfl
    · exact ih

end Xacml
