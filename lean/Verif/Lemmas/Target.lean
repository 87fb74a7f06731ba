import Verif.Spec.Target
import Verif.Lemmas.Combining

/-! Helper lemmas on match elements and targets. -/
namespace Xacml
open Spec

theorem evalMatches_runs {env ctx ms w bs w'}
    (h : Runs (ms.map (Match.evaluate env · ctx)) w bs w') :
    evalMatches env ctx ms w = (.ok bs, w') := by
  induction ms generalizing w bs with
  | nil => cases h; rfl
  | cons m ms ih =>
    cases h with
    | cons hc hr =>
      simp only [evalMatches, run_bind_ok hc, run_bind_ok (ih hr)]
      rfl

theorem evalMatches_fails {env ctx ms w e w'}
    (h : Fails (ms.map (Match.evaluate env · ctx)) w e w') :
    evalMatches env ctx ms w = (.error e, w') := by
  induction ms generalizing w with
  | nil => cases h
  | cons m ms ih =>
    cases h with
    | head hc => simp only [evalMatches, run_bind_error hc]
    | tail hc hr => simp only [evalMatches, run_bind_ok hc, run_bind_error (ih hr)]

theorem matchChild_runs {env ctx c w bs w'}
    (h : Runs (c.matches_.map (Match.evaluate env · ctx)) w bs w') :
    matchChild env ctx c w = (.ok (bs.all id), w') := by
  simp only [matchChild, run_bind_ok (evalMatches_runs h)]; rfl

theorem matchChild_fails {env ctx c w e w'}
    (h : Fails (c.matches_.map (Match.evaluate env · ctx)) w e w') :
    matchChild env ctx c w = (.error e, w') := by
  simp only [matchChild, run_bind_error (evalMatches_fails h)]

theorem sectionLoop_runs {env ctx cs status w entries w'}
    (hs : Shape cs entries)
    (h : Runs ((cs.flatMap (·.matches_)).map (Match.evaluate env · ctx)) w entries.flatten w') :
    sectionLoop env ctx status cs w
      = (.ok (status || decide (∃ entry ∈ entries, ∀ b ∈ entry, b = true)), w') := by
  induction cs generalizing status w entries with
  | nil =>
    cases entries with
    | nil => cases h; cases status <;> simp [sectionLoop]
    | cons => simp [Shape] at hs
  | cons c cs ih =>
    cases entries with
    | nil => simp [Shape] at hs
    | cons bs entries =>
      simp only [Shape, List.map_cons, List.cons.injEq] at hs
      rw [List.flatMap_cons, List.map_append, List.flatten_cons] at h
      obtain ⟨w1, h1, h2⟩ := h.split_at (by simp [hs.1])
      simp only [sectionLoop, run_bind_ok (matchChild_runs h1)]
      rw [ih hs.2 h2]
      have : (bs.all id = true) ↔ ∀ b ∈ bs, b = true := by simp
      by_cases hb : ∀ b ∈ bs, b = true
      · rw [if_pos (this.2 hb)]
        congr 2
        symm
        have : ∃ entry ∈ bs :: entries, ∀ b ∈ entry, b = true := ⟨bs, by simp, hb⟩
        rw [decide_eq_true this, Bool.or_true, Bool.true_or]
      · rw [if_neg (fun h => hb (this.1 h))]
        congr 3
        apply decide_eq_decide.2
        constructor
        · rintro ⟨x, hx, hx'⟩; exact ⟨x, by simp [hx], hx'⟩
        · rintro ⟨x, hx, hx'⟩
          rcases List.mem_cons.1 hx with rfl | hx
          · exact absurd hx' hb
          · exact ⟨x, hx, hx'⟩

theorem sectionLoop_fails {env ctx cs status w e w'}
    (h : Fails ((cs.flatMap (·.matches_)).map (Match.evaluate env · ctx)) w e w') :
    sectionLoop env ctx status cs w = (.error e, w') := by
  induction cs generalizing status w with
  | nil => cases h
  | cons c cs ih =>
    rw [List.flatMap_cons, List.map_append] at h
    rcases h.split with h | ⟨as, w1, h1, h2⟩
    · simp only [sectionLoop, run_bind_error (matchChild_fails h)]
    · simp only [sectionLoop, run_bind_ok (matchChild_runs h1), ih h2]

theorem Spec.Shape.length {cs entries} (h : Shape cs entries) :
    entries.flatten.length = (cs.flatMap (·.matches_)).length := by
  rw [List.length_flatten, List.length_flatMap, h]

theorem matchSection_runs {env ctx cs w entries w'}
    (hs : Shape cs entries)
    (h : Runs ((cs.flatMap (·.matches_)).map (Match.evaluate env · ctx)) w entries.flatten w') :
    ∃ b, matchSection env ctx cs w = (.ok b, w') ∧ (b = true ↔ SectionMatches entries) := by
  unfold matchSection
  cases cs with
  | nil =>
    cases entries with
    | nil => cases h; exact ⟨true, by simp, by simp [SectionMatches]⟩
    | cons => simp [Shape] at hs
  | cons c cs =>
    have hne : entries ≠ [] := by rintro rfl; simp [Shape] at hs
    refine ⟨decide (∃ entry ∈ entries, ∀ b ∈ entry, b = true), ?_, ?_⟩
    · rw [if_neg (by simp), sectionLoop_runs hs h]; simp
    · simp [SectionMatches, hne]

theorem matchSection_fails {env ctx cs w e w'}
    (h : Fails ((cs.flatMap (·.matches_)).map (Match.evaluate env · ctx)) w e w') :
    matchSection env ctx cs w = (.error e, w') := by
  unfold matchSection
  cases cs with
  | nil => cases h
  | cons c cs => rw [if_neg (by simp), sectionLoop_fails h]

/-- Splitting a flat list of results according to a section's shape. -/
theorem exists_shape (cs : List TargetChild) (bs : List Bool)
    (h : bs.length = (cs.flatMap (·.matches_)).length) :
    ∃ entries, Shape cs entries ∧ entries.flatten = bs := by
  induction cs generalizing bs with
  | nil =>
    simp at h; subst h; exact ⟨[], rfl, rfl⟩
  | cons c cs ih =>
    simp only [List.flatMap_cons, List.length_append] at h
    obtain ⟨es, h1, h2⟩ := ih (bs.drop c.matches_.length) (by simp [h])
    refine ⟨bs.take c.matches_.length :: es, ?_, by simp [h2]⟩
    simp only [Shape, List.map_cons, List.length_take]
    rw [h1, Nat.min_eq_left (by omega)]

/-- Python's truth value, against the list of what is regarded as false. -/
theorem truthy_iff (x : PyVal) : x.truthy = true ↔ ¬ Spec.RegardedFalse x := by
  have key : x.truthy = false ↔ Spec.RegardedFalse x := by
    constructor
    · intro h
      cases x with
      | av v => cases h
      | bag b =>
        obtain ⟨t, l⟩ := b
        cases l with
        | nil => exact .emptyBag
        | cons _ _ => cases h
      | none => exact .nothing
      | opaque_ t => simp only [PyVal.truthy] at h; subst h; exact .object
      | native n =>
        simp only [PyVal.truthy] at h
        cases n with
        | str s => simp [Native.truthy] at h; subst h; exact .emptyText
        | int i => simp [Native.truthy] at h; subst h; exact .zero
        | bool b => simp [Native.truthy] at h; subst h; exact .no
        | timedelta u => simp [Native.truthy] at h; subst h; exact .emptyDuration
        | datetime d => simp [Native.truthy] at h
        | float f =>
          cases f with
          | fin q => simp [Native.truthy] at h; subst h; exact .zeroDouble
          | _ => simp [Native.truthy] at h
    · rintro (_ | _) <;> rfl
  rw [← key]
  cases x.truthy <;> simp

end Xacml
