import Verif.Spec.Creation
import Verif.Props.Comparison

/-!
# C83: created results and error responses contain what they were created with
-/
namespace Xacml
open Spec

variable {V : Type}

private theorem codes_iff (c : String) : c ∈ statusCodes ↔ c ∈ codes := by
  simp only [statusCodes, codes, List.mem_cons, List.not_mem_nil, or_false]
  constructor <;> (rintro (h | h | h | h) <;> simp [h])

private theorem create_eq (a : ResultArgs V) : createResult a =
    (match (Term.mk .decision "Indeterminate").assign a.decision with
    | (.error e, _) => .error e
    | (.ok _, d) =>
      match createStatus a.code a.message a.detail with
      | .error e => .error e
      | .ok s =>
        match a.obligations with
        | .none_ => .ok ⟨d, s, none, none⟩
        | .obligation o => .ok ⟨d, s, none, some o⟩
        | _ => .error .typeError) := by
  have hc : Vocab.create .decision (.str "Indeterminate") = .ok ⟨.decision, "Indeterminate"⟩ := by rfl
  rw [createResult, hc]
  simp only [bind, Except.bind]
  cases (Term.mk .decision "Indeterminate").assign a.decision with
  | mk x d =>
    cases x with
    | error e => rfl
    | ok _ =>
      cases createStatus a.code a.message a.detail with
      | error e => rfl
      | ok s => cases a.obligations <;> rfl

/-- C83: with arguments of the documented types a result is created that says what they say. -/
theorem C83_created (a : ResultArgs V) (d c m : String) (o : Option V) (h : Wellformed a d c m o) :
    ∃ r, createResult a = .ok r ∧ r.decision = ⟨.decision, d⟩ ∧ r.status.code = c ∧ r.status.message = m ∧
      r.status.detail = a.detail ∧ r.obligations = o := by
  have h1 := (C81_assign ⟨.decision, "Indeterminate"⟩ a.decision).1 d h.decision h.vocabulary
  have h2 : createStatus a.code a.message a.detail = .ok ⟨c, m, a.detail⟩ := by
    rw [h.code, h.message, createStatus]
    simp [(codes_iff c).2 h.known]
  rw [create_eq, h1, h2]
  cases o with
  | none => rw [h.obligations]; exact ⟨_, rfl, rfl, rfl, rfl, rfl, rfl⟩
  | some x => rw [h.obligations]; exact ⟨_, rfl, rfl, rfl, rfl, rfl, rfl⟩

/-- C83: nothing else is accepted. -/
theorem C83_accepted (a : ResultArgs V) (r : NewResult V) (h : createResult a = .ok r) :
    ∃ d c m o, Wellformed a d c m o := by
  rw [create_eq] at h
  by_cases hd : ∃ s, Says .decision a.decision s
  · obtain ⟨s, hs⟩ := hd
    have hm : s ∈ vocabulary .decision := by
      rcases hx : a.decision with t | u | _ <;> rw [hx] at hs
      · cases hs with
        | term ht =>
          by_cases hv : t.value ∈ vocabulary .decision
          · exact hv
          · exfalso
            have ha : (⟨.decision, "Indeterminate"⟩ : Term).assign a.decision =
                (.error .attributeError, ⟨.decision, "Indeterminate"⟩) := by
              have : t.value ∉ Vocab.types .decision := by simpa [Vocab.types, vocabulary] using hv
              rw [Term.assign, Vocab.accept, hx]
              simp [Vocab.text, ht, this]
            rw [ha] at h
            cases h
      · cases hs with
        | str hs => exact hs
      · cases hs
    rw [(C81_assign ⟨.decision, "Indeterminate"⟩ a.decision).1 s hs hm] at h
    dsimp only at h
    cases hc : a.code with
    | str c =>
      by_cases hk : c ∈ statusCodes
      · cases hmsg : a.message with
        | str m =>
          rw [hc, hmsg, createStatus] at h
          simp only [hk, if_true] at h
          cases ho : a.obligations with
          | none_ => exact ⟨s, c, m, none, hs, hm, hc, (codes_iff c).1 hk, hmsg, ho⟩
          | obligation o => exact ⟨s, c, m, some o, hs, hm, hc, (codes_iff c).1 hk, hmsg, ho⟩
          | str x => rw [ho] at h; cases h
          | other x => rw [ho] at h; cases h
        | obligation _ => simp [hc, hmsg, createStatus, hk] at h
        | none_ => simp [hc, hmsg, createStatus, hk] at h
        | other _ => simp [hc, hmsg, createStatus, hk] at h
      · simp [hc, createStatus, hk] at h
    | obligation _ => rw [hc] at h; cases h
    | none_ => rw [hc] at h; cases h
    | other _ => rw [hc] at h; cases h
  · obtain ⟨_, e, he⟩ := (C81_assign ⟨.decision, "Indeterminate"⟩ a.decision).2 hd
    cases hx : (Term.mk .decision "Indeterminate").assign a.decision with
    | mk x t =>
      rw [hx] at he h
      dsimp only at he
      subst he
      cases h

/-- C83, violated: the resource identifier a result is created with is lost, always. -/
theorem C83_violated_resource (a : ResultArgs V) (r : NewResult V) (h : createResult a = .ok r) : r.resourceId = none := by
  rw [create_eq] at h
  split at h
  · cases h
  · split at h
    · cases h
    · split at h
      · cases h; rfl
      · cases h; rfl
      · cases h

/-- C83: the response of an error has the decision Indeterminate and the error's message. -/
theorem C83_error (m : String) (rest : List (CreateArg V)) :
    ∃ r, contextErrorResult ⟨.decision, "Indeterminate"⟩ (.str m :: rest) = .ok r ∧
      r.decision = ⟨.decision, "Indeterminate"⟩ ∧ r.status.message = m := by
  exact ⟨_, rfl, rfl, rfl⟩

/-- C83, violated: the error's response has the status code OK, whatever went wrong. -/
theorem C83_violated_status (t : Term) (args : List (CreateArg V)) (r : NewResult V) (h : contextErrorResult t args = .ok r) :
    r.status.code = "urn:oasis:names:tc:xacml:1.0:status:ok" := by
  have hd : createResult (V := V) .defaults = .ok ⟨⟨.decision, "NotApplicable"⟩,
      ⟨"urn:oasis:names:tc:xacml:1.0:status:ok", "", .str ""⟩, none, none⟩ := rfl
  rw [contextErrorResult, hd] at h
  simp only [bind, Except.bind] at h
  cases args with
  | nil => cases h; rfl
  | cons x xs => cases x <;> cases h; rfl

/-- C83, violated: an error cannot be created from anything but a message, another exception for
instance: TypeError is raised instead. -/
theorem C83_violated_argument (t : Term) (v : V) (rest : List (CreateArg V)) :
    contextErrorResult t (.other v :: rest) = .error .typeError := rfl

/-- C83: with a proper decision, an unknown status code raises AttributeError, everything else that is refused
TypeError. -/
theorem C83_refused (a : ResultArgs V) (d : String) (hd : Says .decision a.decision d) (hv : d ∈ vocabulary .decision)
    (e : Exc) : createResult a = .error e ↔
      (∃ c, a.code = .str c ∧ c ∉ codes ∧ e = .attributeError) ∨
      (((∀ c, a.code ≠ .str c) ∨ ∃ c ∈ codes, a.code = .str c ∧
        ((∀ m, a.message ≠ .str m) ∨ (a.obligations ≠ .none_ ∧ ∀ o, a.obligations ≠ .obligation o))) ∧ e = .typeError) := by
  have h1 := (C81_assign ⟨.decision, "Indeterminate"⟩ a.decision).1 d hd hv
  rw [create_eq, h1]
  cases hc : a.code with
  | str c =>
    by_cases hk : c ∈ codes
    · have hk' := (codes_iff c).2 hk
      cases hm : a.message with
      | str m => cases ho : a.obligations <;> simp [createStatus, hk, hk', eq_comm]
      | _ => simp [createStatus, hk, hk', eq_comm]
    · have hk' : c ∉ statusCodes := fun h => hk ((codes_iff c).1 h)
      simp [createStatus, hk, hk', eq_comm]
      rintro x hx rfl
      exact absurd hx hk
  | _ => simp [createStatus, eq_comm]

/-- `C83_refused`: a status code that does not exist, and obligations that are a string. -/
example : createResult (V := Nat) { ResultArgs.defaults with code := .str "ok" } = .error .attributeError ∧
    createResult (V := Nat) { ResultArgs.defaults with obligations := .str "none" } = .error .typeError := by
  have hs : Says .decision (.term ⟨.decision, "NotApplicable"⟩) "NotApplicable" := .term rfl
  constructor
  · exact (C83_refused _ "NotApplicable" hs (by decide) _).2 (.inl ⟨"ok", rfl, by decide, rfl⟩)
  · exact (C83_refused _ "NotApplicable" hs (by decide) _).2 (.inr ⟨.inr ⟨_, by decide, rfl, .inr ⟨by simp, by simp⟩⟩, rfl⟩)

/-- Non-vacuity: a Permit with an obligation. -/
example : Wellformed (V := Nat) { ResultArgs.defaults with decision := .str "Permit", obligations := .obligation 3 }
    "Permit" "urn:oasis:names:tc:xacml:1.0:status:ok" "" (some 3) :=
  ⟨.str (by decide), by decide, rfl, by decide, rfl, rfl⟩

/-- Non-vacuity: a resource identifier that is lost. -/
example : ∃ r, createResult (V := Nat) { ResultArgs.defaults with resourceId := .str "http://localhost/doc" } = .ok r ∧
    r.resourceId = none := ⟨_, rfl, rfl⟩

end Xacml
