import Verif.Model.XmlLibrary

/-!
# C85: all modules use the same XML library
-/
namespace Xacml

/-- The event is not an assignment. -/
def LibEvent.IsLoad : LibEvent → Prop
  | .load _ => True
  | .assign _ => False

private theorem run_some (b : Bool) (es : List LibEvent) (h : ∀ e ∈ es, e.IsLoad) :
    (libRun (some b) es).2 = some b ∧
    ∀ r ∈ (libRun (some b) es).1, ∀ l, r = .ok l → l = if b then .lxml else .elementTree := by
  induction es with
  | nil => exact ⟨rfl, by simp [libRun]⟩
  | cons e es ih =>
    cases e with
    | assign v => exact (h (.assign v) (List.mem_cons_self ..)).elim
    | load o =>
      have ih := ih fun e he => h e (by simp [he])
      cases b with
      | true =>
        refine ⟨ih.1, fun r hr l hl => ?_⟩
        simp only [libRun, importElementTree, List.mem_cons] at hr
        rcases hr with rfl | hr
        · cases o <;> simp_all [importLxml]
        · exact ih.2 r hr l hl
      | false =>
        refine ⟨ih.1, fun r hr l hl => ?_⟩
        simp only [libRun, importElementTree, List.mem_cons] at hr
        rcases hr with rfl | hr
        · simp_all
        · exact ih.2 r hr l hl

/-- C85: however often modules are loaded, and whether or not lxml can be imported at the time, those that load
successfully get the same library, the one `Config.use_lxml` names in the end. -/
theorem C85_same (c : Option Bool) (es : List LibEvent) (h : ∀ e ∈ es, e.IsLoad) :
    ∀ r ∈ (libRun c es).1, ∀ l, r = .ok l →
      (libRun c es).2 = some (decide (l = .lxml)) := by
  intro r hr l hl
  cases c with
  | some b =>
    rw [(run_some b es h).1, (run_some b es h).2 r hr l hl]
    cases b <;> simp
  | none =>
    cases es with
    | nil => cases hr
    | cons e es =>
      cases e with
      | assign v => exact (h (.assign v) (List.mem_cons_self ..)).elim
      | load o =>
        have h' : ∀ e ∈ es, e.IsLoad := fun e he => h e (by simp [he])
        have key : ∀ b x, importElementTree o none = (x, some b) → (∀ l, x = .ok l → l = if b then .lxml else .elementTree) →
            (libRun none (.load o :: es)).2 = some (decide (l = .lxml)) := by
          intro b x hi hx
          have hrun : libRun none (.load o :: es) = (x :: (libRun (some b) es).1, (libRun (some b) es).2) := by
            simp [libRun, hi]
          rw [hrun] at hr ⊢
          rw [(run_some b es h').1]
          have : l = if b then .lxml else .elementTree := by
            rcases List.mem_cons.1 hr with rfl | hr
            · exact hx l hl
            · exact (run_some b es h').2 r hr l hl
          rw [this]; cases b <;> simp
        cases o with
        | found => exact key true _ rfl (by rintro l ⟨⟩; rfl)
        | missing => exact key false _ rfl (by rintro l ⟨⟩; rfl)
        | fails e =>
          by_cases he : e = .importError
          · exact key false (.ok .elementTree) (by simp [importElementTree, he]) (by rintro l ⟨⟩; rfl)
          · exact key false (.error e) (by simp [importElementTree, he]) (by rintro l ⟨⟩)

/-- C85: a choice made before the first module is loaded is obeyed; if lxml was chosen and cannot be imported, loading
fails instead of using the other library. -/
theorem C85_choice (b : Bool) (o : ImportOut) (es : List LibEvent) :
    (libRun none (.assign (some b) :: .load o :: es)).1.head? =
      some (if b then importLxml o else .ok .elementTree) := by
  cases b <;> rfl

/-- C85: without a choice lxml is used if it is there. -/
theorem C85_default (es : List LibEvent) :
    (libRun none (.load .found :: es)).1.head? = some (.ok .lxml) ∧
    (libRun none (.load .missing :: es)).1.head? = some (.ok .elementTree) := ⟨rfl, rfl⟩

/-- C85, violated: after an assignment to `Config.use_lxml` modules loaded later get the other library. -/
theorem C85_violated (b : Bool) (es : List LibEvent) :
    ∃ rs, (libRun (some b) (.load .found :: .assign (some (!b)) :: .load .found :: es)).1 =
      .ok (if b then .lxml else .elementTree) :: .ok (if b then .elementTree else .lxml) :: rs := by
  cases b <;> exact ⟨_, rfl⟩

/-- Three modules; lxml disappears in between. -/
example : (libRun none [.load .found, .load .missing, .load .found]).1 = [.ok .lxml, .error .importError, .ok .lxml] ∧
    (∀ e ∈ [LibEvent.load .found, .load .missing, .load .found], e.IsLoad) := by
  refine ⟨rfl, ?_⟩
  intro e he
  simp only [List.mem_cons, List.not_mem_nil, or_false] at he
  rcases he with rfl | rfl | rfl <;> trivial

end Xacml
