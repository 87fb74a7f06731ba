import Verif.Spec.Space
import Verif.Model.PrettyPrint

/-!
# C44, C76: white space around texts
-/
namespace Xacml
open Spec

private theorem space_iff (c : Char) : isPySpace c = true ↔ IsSpace c := by
  simp only [isPySpace, IsSpace, whiteSpace, Bool.or_eq_true, Bool.and_eq_true, decide_eq_true_eq, beq_iff_eq, List.mem_cons,
    List.not_mem_nil, or_false]
  omega

private theorem drop_parts (P : Char → Bool) (x : List Char) : x = x.takeWhile P ++ x.dropWhile P := (List.takeWhile_append_dropWhile ..).symm

private theorem head_drop (P : Char → Bool) (x : List Char) (c : Char) (h : (x.dropWhile P).head? = some c) : P c = false := by
  have := List.head?_dropWhile_not P x
  rw [h] at this
  simpa using this

private theorem mem_take {P : Char → Bool} {x : List Char} {c : Char} (h : c ∈ x.takeWhile P) : P c = true := by
  induction x with
  | nil => cases h
  | cons a x ih =>
    rw [List.takeWhile_cons] at h
    split at h
    · rename_i ha
      rcases List.mem_cons.1 h with rfl | h
      · exact ha
      · exact ih h
    · cases h

/-- C76: `str.strip` removes the white space around a text and nothing else. -/
theorem C76_strip (t : Chars) : WithoutSpace t (stripChars t) ∧ ∀ d, WithoutSpace t d → d = stripChars t := by
  have hex : WithoutSpace t (stripChars t) := by
    refine ⟨t.takeWhile isPySpace, ((t.dropWhile isPySpace).reverse.takeWhile isPySpace).reverse, ?_, ?_, ?_, ?_, ?_⟩
    · rw [List.append_assoc, stripChars, ← List.reverse_append, List.takeWhile_append_dropWhile, List.reverse_reverse,
        List.takeWhile_append_dropWhile]
    · exact fun c hc => (space_iff c).1 (mem_take hc)
    · exact fun c hc => (space_iff c).1 (mem_take (List.mem_reverse.1 hc))
    · intro c hc hs
      have hpre : stripChars t <+: t.dropWhile isPySpace := by
        rw [stripChars, ← List.reverse_suffix, List.reverse_reverse]
        exact List.dropWhile_suffix _
      obtain ⟨r, hr⟩ := hpre
      have : (t.dropWhile isPySpace).head? = some c := by rw [← hr, List.head?_append, hc]; rfl
      have := head_drop _ _ _ this
      rw [(space_iff c).2 hs] at this
      cases this
    · intro c hc hs
      rw [stripChars, List.getLast?_reverse] at hc
      have := head_drop _ _ _ hc
      rw [(space_iff c).2 hs] at this
      cases this
  refine ⟨hex, ?_⟩
  rintro d ⟨b, a, rfl, h1, h2, h3, h4⟩
  have e1 : ∀ (w x : List Char), (∀ c ∈ w, IsSpace c) → (w ++ x).dropWhile isPySpace = x.dropWhile isPySpace := by
    intro w x hw
    induction w with
    | nil => rfl
    | cons c w ih =>
      rw [List.cons_append, List.dropWhile_cons, if_pos ((space_iff c).2 (hw c (List.mem_cons_self ..))),
        ih fun c hc => hw c (List.mem_cons_of_mem _ hc)]
  have e2 : ∀ x : List Char, (∀ c, x.head? = some c → ¬ IsSpace c) → x.dropWhile isPySpace = x := by
    intro x hx
    cases x with
    | nil => rfl
    | cons c x =>
      have : isPySpace c = false := by
        cases h : isPySpace c with
        | false => rfl
        | true => exact absurd ((space_iff c).1 h) (hx c rfl)
      rw [List.dropWhile_cons, this]
      rfl
  rw [stripChars, List.append_assoc, e1 b _ h1]
  cases d with
  | nil =>
    have : a.dropWhile isPySpace = [] := by
      have := e1 a [] h2
      simpa using this
    simp [this]
  | cons c d =>
    rw [e2 (c :: d ++ a) (by simpa using h3), List.reverse_append, e1 _ _ fun x hx => h2 x (List.mem_reverse.1 hx),
      e2 _ (by
        intro x hx
        rw [List.head?_reverse] at hx
        exact h4 x hx), List.reverse_reverse]

/-- C44: so is a description read from a policy. -/
theorem C44_description (t : String) :
    WithoutSpace t.toList (pyStrip t).toList ∧ ∀ d : String, WithoutSpace t.toList d.toList → d = pyStrip t := by
  have he : (pyStrip t).toList = stripChars t.toList := by rw [pyStrip, stripChars, String.toList_ofList]
  obtain ⟨h1, h2⟩ := C76_strip t.toList
  rw [he]
  refine ⟨h1, fun d hd => ?_⟩
  rw [← String.ofList_toList (s := d), h2 _ hd]
  rfl

/-- A description with white space around and inside. -/
example : WithoutSpace [' ', 'a', ' ', 'b', '\n'] ['a', ' ', 'b'] := by
  refine ⟨[' '], ['\n'], rfl, ?_, ?_, ?_, ?_⟩
  · intro c hc; rw [List.mem_singleton.1 hc]; unfold IsSpace; decide
  · intro c hc; rw [List.mem_singleton.1 hc]; unfold IsSpace; decide
  · intro c hc; cases hc; unfold IsSpace; decide
  · intro c hc; cases hc; unfold IsSpace; decide

end Xacml
