import Verif.Spec.Attributes

/-!
# C82: attributes hold what was last assigned to them, and only values of the documented type
-/
namespace Xacml
open Spec

variable {V : Type}

/-- The setter's own conditions. -/
private def Accepts (w : AttrValueWorld V) (a : Attr) (v : V) : Prop :=
  match a.test with
  | some c => w.isA v c = true ∧ (a = .statusCodeValue → w.isStatusCode v = true)
  | none => True

private theorem test_table (a : Attr) :
    (a ∈ stringAttrs ↔ a.test = some .str) ∧ (a ∈ boolAttrs ↔ a.test = some .bool) ∧ (a ∈ anyAttrs ↔ a.test = none) := by
  cases a <;> decide +kernel

private theorem object_table (a : Attr) (c : PyClass) (h : (a, c) ∈ objectAttrs) : a.test = some c := by
  revert h; cases a <;> cases c <;> decide +kernel

private theorem object_table' (a : Attr) (c : PyClass) (h : a.test = some c) (h1 : c ≠ .str) (h2 : c ≠ .bool) :
    (a, c) ∈ objectAttrs := by
  revert h h1 h2; cases a <;> cases c <;> decide +kernel

private theorem suits_iff (w : AttrValueWorld V) (a : Attr) (v : V) : Suits w a v ↔ Accepts w a v := by
  obtain ⟨hs, hb, ha⟩ := test_table a
  constructor
  · intro h
    rw [Accepts]
    cases h with
    | string h1 h2 h3 => rw [hs.1 h1]; exact ⟨h3, fun h => absurd h h2⟩
    | statusCode h1 h2 => exact ⟨h1, fun _ => h2⟩
    | bool h1 h2 => rw [hb.1 h1]; exact ⟨h2, fun h => by subst h; cases hb.1 h1⟩
    | object h1 h2 =>
      rw [object_table _ _ h1]
      refine ⟨h2, fun h => ?_⟩
      subst h
      have := object_table _ _ h1
      cases this
      exact absurd h1 (by decide +kernel)
    | any h1 => rw [ha.1 h1]; trivial
  · intro h
    rw [Accepts] at h
    cases ht : a.test with
    | none => exact .any (ha.2 ht)
    | some c =>
      rw [ht] at h
      by_cases h1 : c = .str
      · subst h1
        by_cases h2 : a = .statusCodeValue
        · subst h2; exact .statusCode h.1 (h.2 rfl)
        · exact .string (hs.2 ht) h2 h.1
      · by_cases h2 : c = .bool
        · subst h2; exact .bool (hb.2 ht) h.1
        · exact .object (object_table' a c ht h1 h2) h.1

private def isRival (a b : Attr) : Prop :=
  (a = .matchAttributeDesignator ∧ b = .matchAttributeSelector) ∨ (a = .matchAttributeSelector ∧ b = .matchAttributeDesignator)

private theorem rival_iff (a b : Attr) : a.rival = some b ↔ isRival a b := by
  cases a <;> simp [Attr.rival, isRival, eq_comm]

private theorem set_refused (w : AttrValueWorld V) (s : Slots V) {a : Attr} {v : V} (l : Option Exc) (h : ¬ Accepts w a v) :
    (setAttr w s a v l).2 = s ∧ ((setAttr w s a v l).1 = .error .typeError ∨ (setAttr w s a v l).1 = .error .attributeError) := by
  rw [Accepts] at h
  rw [setAttr]
  cases ht : a.test with
  | none => rw [ht] at h; exact absurd trivial h
  | some c =>
    rw [ht] at h
    by_cases h1 : w.isA v c = true
    · by_cases h2 : a = .statusCodeValue ∧ w.isStatusCode v = false
      · simp [h1, h2]
      · exfalso
        refine h ⟨h1, fun h3 => ?_⟩
        cases h4 : w.isStatusCode v with
        | true => rfl
        | false => exact absurd ⟨h3, h4⟩ h2
    · simp [h1]

private theorem set_accepted (w : AttrValueWorld V) (s : Slots V) {a : Attr} {v : V} (l : Option Exc) (h : Accepts w a v) :
    setAttr w s a v l = setAttr.store s a v l := by
  rw [Accepts] at h
  rw [setAttr]
  cases ht : a.test with
  | none => rfl
  | some c =>
    rw [ht] at h
    have h2 : ¬ (a = .statusCodeValue ∧ w.isStatusCode v = false) := fun ⟨h3, h4⟩ => by
      rw [h.2 h3] at h4; cases h4
    simp [h.1, h2]

private theorem store_slots (s : Slots V) (a : Attr) (v : V) (l : Option Exc) :
    (setAttr.store s a v l).2 = match a.rival with
      | some b => (s.put a (.val v)).put b .none_
      | none => s.put a (.val v) := by
  unfold setAttr.store
  cases l with
  | none => rfl
  | some e => cases h : a.looksUp <;> cases a.rival <;> simp

private theorem step_holds (w : AttrValueWorld V) (s : Slots V) (a b : Attr) (v : V) (l : Option Exc) (h : Accepts w a v) :
    (setAttr w s a v l).2 b = if b = a then .val v else if a.rival = some b then .none_ else s b := by
  rw [set_accepted w s l h, store_slots]
  cases hr : a.rival with
  | none => simp [Slots.put]
  | some c =>
    simp only [Slots.put, Option.some.injEq]
    have hac : a ≠ c := by
      intro h'; subst h'
      rcases (rival_iff a a).1 hr with ⟨h1, h2⟩ | ⟨h1, h2⟩ <;> (rw [h1] at h2; cases h2)
    by_cases h1 : b = c
    · subst h1; simp [Ne.symm hac]
    · by_cases h2 : b = a
      · simp [h2, hac]
      · simp [h1, h2, Ne.symm h1]

private theorem assignAll_snoc (w : AttrValueWorld V) (s : Nat → Slots V) (xs : List (Assignment V)) (x : Assignment V) (o : Nat) :
    assignAll w s (xs ++ [x]) o =
      if o = x.obj then (setAttr w (assignAll w s xs o) x.attr x.value x.lookup).2 else assignAll w s xs o := by
  induction xs generalizing s with
  | nil =>
    simp only [List.nil_append, assignAll]
  | cons y ys ih =>
    simp only [List.cons_append, assignAll]
    rw [ih]

/-- C82: after every history of assignments to any number of objects, whether they were accepted or not,
every attribute holds the last suitable value that was assigned to it (matches having a designator or a
selector), and what `__init__` put there if there is none. -/
theorem C82_last (w : AttrValueWorld V) (s : Nat → Slots V) (xs : List (Assignment V)) (o : Nat) (a : Attr) :
    SlotHolds w (s o a) o a xs.reverse (assignAll w s xs o a) := by
  have gen : ∀ ys : List (Assignment V), SlotHolds w (s o a) o a ys (assignAll w s ys.reverse o a) := by
    intro ys
    induction ys with
    | nil => exact .start
    | cons x ys ih =>
      rw [List.reverse_cons, assignAll_snoc]
      by_cases ho : o = x.obj
      · rw [if_pos ho]
        by_cases hs : Suits w x.attr x.value
        · rw [step_holds w _ x.attr a x.value x.lookup ((suits_iff w _ _).1 hs)]
          by_cases ha : a = x.attr
          · rw [if_pos ha]
            exact .set ho.symm ha.symm (ha ▸ hs)
          · rw [if_neg ha]
            by_cases hr : x.attr.rival = some a
            · rw [if_pos hr]
              exact .reset ho.symm hs ((rival_iff _ _).1 hr)
            · rw [if_neg hr]
              exact .keep (.inr (.inr ⟨fun h => ha h.symm, fun h => hr ((rival_iff _ _).2 h)⟩)) ih
        · rw [(set_refused w _ x.lookup (fun h => hs ((suits_iff w _ _).2 h))).1]
          exact .keep (.inr (.inl hs)) ih
      · rw [if_neg ho]
        exact .keep (.inl fun h => ho h.symm) ih
  have := gen xs.reverse
  rwa [List.reverse_reverse] at this

/-- C82: this determines what an attribute holds. -/
theorem C82_determined (w : AttrValueWorld V) (start : Slot V) (o : Nat) (a : Attr) (xs : List (Assignment V)) (y z : Slot V)
    (hy : SlotHolds w start o a xs y) (hz : SlotHolds w start o a xs z) : y = z := by
  have norival : ∀ (b : Attr), ¬ ((b = .matchAttributeDesignator ∧ b = .matchAttributeSelector) ∨
        (b = .matchAttributeSelector ∧ b = .matchAttributeDesignator)) := by
    rintro b (⟨h, h'⟩ | ⟨h, h'⟩) <;> (rw [h] at h'; cases h')
  induction hy with
  | start => cases hz; rfl
  | set h1 h2 h3 =>
    subst h2
    cases hz with
    | set _ _ _ => rfl
    | reset _ _ h => exact absurd h (norival _)
    | keep h _ =>
      rcases h with h | h | h
      · exact absurd h1 h
      · exact absurd h3 h
      · exact absurd rfl h.1
  | reset h1 h2 h3 =>
    cases hz with
    | set _ h _ => subst h; exact absurd h3 (norival _)
    | reset _ _ _ => rfl
    | keep h _ =>
      rcases h with h | h | h
      · exact absurd h1 h
      · exact absurd h2 h
      · exact absurd h3 h.2
  | keep h _ ih =>
    cases hz with
    | set h1 h2 h3 =>
      subst h2
      rcases h with h | h | h
      · exact absurd h1 h
      · exact absurd h3 h
      · exact absurd rfl h.1
    | reset h1 h2 h3 =>
      rcases h with h | h | h
      · exact absurd h1 h
      · exact absurd h2 h
      · exact absurd h3 h.2
    | keep _ hz => exact ih hz

/-- C82: an attribute never holds a value that does not suit it. -/
theorem C82_suits (w : AttrValueWorld V) (xs : List (Assignment V)) (o : Nat) (a : Attr) (v : V)
    (h : assignAll w newObjects xs o a = .val v) : Suits w a v := by
  have hl := C82_last w newObjects xs o a
  rw [h] at hl
  generalize xs.reverse = ys at hl
  have gen : ∀ (ys : List (Assignment V)) (y : Slot V), SlotHolds w (newObjects o a) o a ys y → y = .val v → Suits w a v := by
    intro ys y hy
    induction hy with
    | start => intro h; exact absurd h (by cases a <;> simp [newObjects, Attr.init])
    | set _ _ h3 => intro h; cases h; exact h3
    | reset _ _ _ => intro h; cases h
    | keep _ _ ih => exact ih
  exact gen ys _ hl rfl

/-- C82: a value that does not suit is refused with TypeError, or AttributeError for a string that is no
status code, and nothing changes; a value that suits is accepted unless looking it up fails. -/
theorem C82_refused (w : AttrValueWorld V) (s : Slots V) (a : Attr) (v : V) (lookup : Option Exc) :
    (¬ Suits w a v → (setAttr w s a v lookup).2 = s ∧
      (setAttr w s a v lookup).1 = .error (if a = .statusCodeValue ∧ w.isA v .str = true then .attributeError else .typeError)) ∧
    (Suits w a v → lookup = none → (setAttr w s a v lookup).1 = .ok ()) := by
  constructor
  · intro h
    have h' : ¬ Accepts w a v := fun h' => h ((suits_iff w a v).2 h')
    refine ⟨(set_refused w s lookup h').1, ?_⟩
    rw [Accepts] at h'
    rw [setAttr]
    cases ht : a.test with
    | none => rw [ht] at h'; exact absurd trivial h'
    | some c =>
      rw [ht] at h'
      by_cases h1 : w.isA v c = true
      · have h2 : a = .statusCodeValue ∧ w.isStatusCode v = false := by
          by_cases h2 : a = .statusCodeValue
          · refine ⟨h2, ?_⟩
            cases h4 : w.isStatusCode v with
            | false => rfl
            | true => exact absurd ⟨h1, fun _ => h4⟩ h'
          · exact absurd ⟨h1, fun h3 => absurd h3 h2⟩ h'
        have h3 : c = .str := by rw [h2.1] at ht; cases ht; rfl
        subst h3
        simp [h1, h2]
      · by_cases h2 : a = .statusCodeValue
        · subst h2
          cases ht
          simp [h1]
        · simp [h1, h2]
  · intro h hl
    subst hl
    rw [set_accepted w s none ((suits_iff w a v).1 h)]
    rfl

/-- C82: every attribute of a new object can be read, except the description of a rule. -/
theorem C82_new_partial (a : Attr) (h : a ≠ .ruleDescription) (h' : a ≠ .coreElem) (h'' : a ≠ .coreXmlns) :
    ∃ x : Slot V, readSlot (newObjects (V := V) 0 a) = .ok x := by
  cases a <;> first | exact absurd rfl h | exact absurd rfl h' | exact absurd rfl h'' | exact ⟨_, rfl⟩

/-- C82, violated: the description of a new rule cannot be read (AttributeError), and whatever happens
to a rule it stays so until a description is assigned. -/
theorem C82_violated_description (w : AttrValueWorld V) (xs : List (Assignment V)) (o : Nat)
    (h : ∀ x ∈ xs, ¬ (x.obj = o ∧ x.attr = .ruleDescription)) :
    readSlot (assignAll w newObjects xs o .ruleDescription) = .error .attributeError := by
  have hl := C82_last w newObjects xs o .ruleDescription
  have gen : ∀ (ys : List (Assignment V)) (y : Slot V), SlotHolds w (newObjects o .ruleDescription) o .ruleDescription ys y →
      (∀ x ∈ ys, ¬ (x.obj = o ∧ x.attr = .ruleDescription)) → y = .unset := by
    intro ys y hy
    induction hy with
    | start => intro _; rfl
    | set h1 h2 _ => intro h; exact absurd ⟨h1, h2⟩ (h _ (by simp))
    | reset _ _ h3 => rcases h3 with ⟨_, h3⟩ | ⟨_, h3⟩ <;> cases h3
    | keep _ _ ih => intro h; exact ih fun x hx => h x (by simp [hx])
  rw [gen _ _ hl (by simpa using h)]
  rfl

/-- C82, violated: the element of new targets, matches and obligations cannot be read. -/
theorem C82_violated_element (cls : String)
    (h : cls ∈ ["Target", "SubjectMatch", "ResourceMatch", "ActionMatch", "EnvironmentMatch", "Obligation"]) :
    readSlot (elemInit (V := V) cls) = .error .attributeError := by
  have : initialisesCore cls = false := by
    rw [initialisesCore, List.contains_iff_mem.2 h]
    rfl
  rw [elemInit, this]
  rfl

/-- Values for examples: strings, and objects of one class. -/
private def sample : AttrValueWorld (String ⊕ PyClass) where
  isA v c := match v with
    | .inl _ => c == .str
    | .inr d => c == d
  isStatusCode v := v == .inl "urn:oasis:names:tc:xacml:1.0:status:ok"

/-- Non-vacuity: a match that gets a designator, then something wrong, then a selector; a rule without
description. -/
example :
    (assignAll sample newObjects [⟨1, .matchAttributeDesignator, .inr .attributeDesignator, none⟩,
      ⟨1, .matchAttributeSelector, .inl "//a", none⟩] 1 .matchAttributeDesignator = .val (.inr .attributeDesignator)) ∧
    (assignAll sample newObjects [⟨1, .matchAttributeDesignator, .inr .attributeDesignator, none⟩,
      ⟨1, .matchAttributeSelector, .inr .attributeSelector, none⟩] 1 .matchAttributeDesignator = .none_) ∧
    (assignAll sample newObjects [⟨0, .policyRuleCombiningAlgId, .inl "x", some .keyError⟩] 0 .policyRuleCombiningAlgId = .val (.inl "x")) ∧
    ¬ Suits sample .statusCodeValue (.inl "fine") ∧ Suits sample .statusStatusMessage (.inl "fine") := by
  refine ⟨by rfl, by rfl, by rfl, ?_, .string (by decide) (by decide) rfl⟩
  intro h
  exact absurd ((suits_iff sample _ _).1 h) (by intro h; exact absurd (h.2 rfl) (by decide))

end Xacml
