import Verif.Spec.Comparison

/-!
# C81: decisions and effects are compared by value
-/
namespace Xacml
open Spec

private theorem types_iff (c : Vocab) (s : String) : s ∈ c.types ↔ s ∈ vocabulary c := by
  cases c <;> simp [Vocab.types, vocabulary, or_comm]

private theorem accept_ok {c : Vocab} {x : Operand} {s : String} (h : c.accept x = .ok s) : s ∈ vocabulary c := by
  rw [Vocab.accept] at h
  cases ht : c.text x with
  | none => rw [ht] at h; cases h
  | some u =>
    rw [ht] at h
    by_cases hu : u ∈ c.types
    · simp only [hu, if_true, Except.ok.injEq] at h
      exact h ▸ (types_iff c u).1 hu
    · simp only [hu] at h; cases h

private theorem assign_cls (t : Term) (x : Operand) : (t.assign x).2.cls = t.cls := by
  rw [Term.assign]
  cases t.cls.accept x <;> rfl

private theorem assign_mem {t : Term} (h : t.value ∈ vocabulary t.cls) (x : Operand) :
    (t.assign x).2.value ∈ vocabulary (t.assign x).2.cls := by
  rw [Term.assign]
  cases hx : t.cls.accept x with
  | error e => exact h
  | ok s => exact accept_ok hx

/-- C81: an instance always has one of the values of its class, whatever was assigned. -/
theorem C81_vocabulary (t : Term) (h : Instance t) : t.value ∈ vocabulary t.cls := by
  obtain ⟨x, xs, h⟩ := h
  rw [Vocab.history, Vocab.create] at h
  cases hx : t.cls.accept x with
  | error e => rw [hx] at h; cases h
  | ok s =>
    rw [hx] at h
    simp only [Option.some.injEq] at h
    have gen : ∀ (xs : List Operand) (u : Term), u.value ∈ vocabulary u.cls →
        (xs.foldl (fun t x => (t.assign x).2) u).value ∈ vocabulary (xs.foldl (fun t x => (t.assign x).2) u).cls := by
      intro xs
      induction xs with
      | nil => intro u hu; exact hu
      | cons y ys ih => intro u hu; exact ih _ (assign_mem hu y)
    have := gen xs ⟨t.cls, s⟩ (accept_ok hx)
    rw [h] at this
    exact this

private theorem text_says {c : Vocab} {x : Operand} {s : String} (h : Says c x s) : c.text x = some s := by
  cases h with
  | term ht => simp [Vocab.text, ht]
  | str _ => rfl

/-- C81: assigning what says a value makes it the value; anything else is an error and changes nothing. -/
theorem C81_assign (t : Term) (x : Operand) :
    (∀ s, Says t.cls x s → s ∈ vocabulary t.cls → t.assign x = (.ok (), { t with value := s })) ∧
    ((¬ ∃ s, Says t.cls x s) → (t.assign x).2 = t ∧ ∃ e, (t.assign x).1 = .error e) := by
  constructor
  · intro s hs hm
    have := (types_iff t.cls s).2 hm
    simp [Term.assign, Vocab.accept, text_says hs, this]
  · intro hn
    have herr : ∃ e, t.cls.accept x = .error e := by
      rw [Vocab.accept]
      cases x with
      | term u =>
        by_cases hu : u.cls = t.cls
        · exact absurd ⟨u.value, .term hu⟩ hn
        · exact ⟨.typeError, by simp [Vocab.text, hu]⟩
      | str s =>
        have : s ∉ t.cls.types := fun h => hn ⟨s, .str ((types_iff _ _).1 h)⟩
        exact ⟨.attributeError, by simp [Vocab.text, this]⟩
      | other => exact ⟨.typeError, rfl⟩
    obtain ⟨e, he⟩ := herr
    rw [Term.assign, he]
    exact ⟨rfl, e, rfl⟩

/-- C81: comparison, on either side, with an instance of the same class or a string of the vocabulary
compares values. -/
theorem C81_equal (t : Term) (ht : Instance t) (x : Operand) (hx : ∀ u, x = .term u → Instance u) (s : String)
    (h : Says t.cls x s) (left : Bool) :
    pyCompare t x left = .ok (decide (t.value = s)) ∧ pyDiffers t x left = .ok (decide (t.value ≠ s)) := by
  have key : pyCompare t x left = .ok (decide (t.value = s)) := by
    cases h with
    | @term u hu =>
      have h1 := (types_iff _ _).2 (C81_vocabulary t ht)
      have h2 := (types_iff _ _).2 (C81_vocabulary u (hx u rfl))
      cases left with
      | true => rw [hu] at h2; simp [pyCompare, Term.eqMethod, Vocab.text, hu, h2]
      | false =>
        rw [← hu] at h1
        simp only [pyCompare, Term.eqMethod, Vocab.text, hu.symm, if_true, h1]
        congr 1
        exact decide_eq_decide.2 eq_comm
    | str hs =>
      have h1 := (types_iff _ _).2 hs
      cases left <;> simp [pyCompare, Term.eqMethod, Vocab.text, h1]
  refine ⟨key, ?_⟩
  rw [pyDiffers, key]
  simp

/-- C81: comparison with any other string is an AttributeError, on either side. -/
theorem C81_unknown (t : Term) (s : String) (h : s ∉ vocabulary t.cls) (left : Bool) :
    pyCompare t (.str s) left = .error .attributeError := by
  have : s ∉ t.cls.types := fun h' => h ((types_iff _ _).1 h')
  cases left <;> simp [pyCompare, Term.eqMethod, Vocab.text, this]

/-- C81, violated: comparison with anything else, None or an instance of another of these classes for
instance, is an UnboundLocalError, not the TypeError the documentation promises. -/
theorem C81_violated (t : Term) (left : Bool) :
    pyCompare t .other left = .error .nameError ∧
    ∀ u : Term, u.cls ≠ t.cls → pyCompare t (.term u) left = .error .nameError := by
  constructor
  · cases left <;> rfl
  · intro u hu
    cases left with
    | true => simp [pyCompare, Term.eqMethod, Vocab.text, hu]
    | false => simp [pyCompare, Term.eqMethod, Vocab.text, Ne.symm hu]

/-- C81: an effect counts as true exactly if it is Permit. -/
theorem C81_true (t : Term) (ht : Instance t) (hc : t.cls = .ruleEffect) (left : Bool) :
    pyCompare t (.str "Permit") left = .ok t.effectTrue ∧ pyCompare t (.str "Deny") left = .ok (!t.effectTrue) := by
  have hv := C81_vocabulary t ht
  rw [hc] at hv
  simp only [vocabulary, List.mem_cons, List.not_mem_nil, or_false] at hv
  have h1 := (C81_equal t ht (.str "Permit") (by simp) "Permit" (.str (by simp [hc, vocabulary])) left).1
  have h2 := (C81_equal t ht (.str "Deny") (by simp) "Deny" (.str (by simp [hc, vocabulary])) left).1
  rw [h1, h2, Term.effectTrue]
  rcases hv with hv | hv <;> rw [hv] <;> exact ⟨rfl, rfl⟩

/-- C81, violated: the instances whose classes say that their value cannot be set (DenyEffect,
PermitEffect, and the decisions of C28) can be set like any other. -/
theorem C81_violated_readonly (t : Term) (s : String) (h : s ∈ vocabulary t.cls) :
    t.assign (.str s) = (.ok (), { t with value := s }) :=
  (C81_assign t (.str s)).1 s (.str h) h

/-- Non-vacuity: a decision that was changed, an effect. -/
example : Instance ⟨.decision, "Permit"⟩ ∧ Instance ⟨.ruleEffect, "Deny"⟩ :=
  ⟨⟨.str "Deny", [.str "Maybe", .other, .term ⟨.decision, "Permit"⟩], by rfl⟩, .str "Deny", [], by rfl⟩

/-- Non-vacuity: two decisions that differ, a string that is none, an effect that is not a decision. -/
example : pyCompare ⟨.decision, "Permit"⟩ (.term ⟨.decision, "Deny"⟩) true = .ok false ∧
    Says .decision (.term ⟨.decision, "Deny"⟩) "Deny" ∧ "permit" ∉ vocabulary .decision ∧
    pyCompare ⟨.decision, "Permit"⟩ (.term ⟨.ruleEffect, "Permit"⟩) true = .error .nameError :=
  ⟨by rfl, .term rfl, by decide, by rfl⟩

end Xacml
