import Verif.Spec.Copying

/-!
# C75: copying and pickling
-/
namespace Xacml
open Spec

section Lists
variable {α : Type} {e : CopyExc} {t : String}

private theorem deepcopy_items {f g : α → Obj} {bad : α → Prop} [DecidablePred bad]
    (h : ∀ x, (f x).deepcopy = if bad x then .error e else .ok (g x)) (hi : ∀ x, (g x).isInstance t = true)
    (xs : List α) :
    Obj.deepcopyItems t (xs.map f) = if ∃ x ∈ xs, bad x then .error e else .ok (xs.map g) := by
  induction xs with
  | nil => simp [Obj.deepcopyItems]
  | cons x xs ih =>
    simp only [List.map_cons, Obj.deepcopyItems, h, ih]
    by_cases hx : bad x
    · simp [hx, bind, Except.bind]
    · by_cases hxs : ∃ x ∈ xs, bad x
      · simp [hx, hxs, hi, bind, Except.bind]
      · simp [hx, hxs, hi, bind, Except.bind]

private theorem dumps_items {f g : α → Obj} {bad : α → Prop} [DecidablePred bad]
    (h : ∀ x, (f x).dumps = if bad x then .error e else .ok (g x)) (xs : List α) :
    Obj.dumpsItems (xs.map f) = if ∃ x ∈ xs, bad x then .error e else .ok (xs.map g) := by
  induction xs with
  | nil => simp [Obj.dumpsItems]
  | cons x xs ih =>
    simp only [List.map_cons, Obj.dumpsItems, h, ih]
    by_cases hx : bad x
    · simp [hx, bind, Except.bind]
    · by_cases hxs : ∃ x ∈ xs, bad x
      · simp [hx, hxs, bind, Except.bind]
      · simp [hx, hxs, bind, Except.bind]

end Lists

private def core : List String :=
  ["_XacmlCoreBase__xmlns", "_XacmlCoreBase__reader", "_XacmlCoreBase__writer", "_XacmlCoreBase__elem"]

private theorem s_request : stateNames Cls.request.mro = core ++ ["_Request__subjects", "_Request__resources",
    "_Request__action", "_Request__environment", "_Request__ctxHandler", "_Request__attributeSelector"] := by decide +kernel
private theorem s_subject : stateNames Cls.subject.mro = core ++ ["_RequestChildBase__attributes"] := by decide +kernel
private theorem s_resource : stateNames Cls.resource.mro =
    core ++ ["_RequestChildBase__attributes", "_Resource__resourceContent"] := by decide +kernel
private theorem s_action : stateNames Cls.action.mro = core ++ ["_RequestChildBase__attributes"] := by decide +kernel
private theorem s_environment : stateNames Cls.environment.mro = core ++ ["_RequestChildBase__attributes"] := by decide +kernel
private theorem s_attribute : stateNames Cls.attribute.mro = ["_Attribute__attributeValues", "_Attribute__dataType",
    "_Attribute__attributeId", "_Attribute__issuer"] := by decide +kernel
private theorem s_value : stateNames Cls.value.mro =
    core ++ ["_Expression__dataType", "_AttributeValue__value"] := by decide +kernel
private theorem s_response : stateNames Cls.response.mro = core ++ ["_Response__results"] := by decide +kernel
private theorem s_result : stateNames Cls.result.mro = core ++ ["_Result__resourceId", "_Result__decision",
    "_Result__status", "_Result__obligations"] := by decide +kernel
private theorem s_status : stateNames Cls.status.mro = core := by decide +kernel
private theorem s_statusCode : stateNames Cls.statusCode.mro = core := by decide +kernel
private theorem s_decision : stateNames Cls.decision.mro = ["_Decision__value"] := by decide +kernel
private theorem s_obligation : stateNames Cls.obligation.mro = core := by decide +kernel

private theorem copy_optStr (s : Option String) : (optStrObj s).deepcopy = .ok (optStrObj s) := by
  cases s <;> simp [optStrObj, Obj.deepcopy]

private theorem dump_optStr (s : Option String) : (optStrObj s).dumps = .ok (optStrObj s) := by
  cases s <;> simp [optStrObj, Obj.dumps]

private theorem load_optStr (s : Option String) : (optStrObj s).loads = .ok (optStrObj s) := by
  cases s <;> simp [optStrObj, Obj.loads]

/-! ## Deep copies of responses -/

/-- A result with a status that has lost its code, message and detail. -/
def Spec.withoutStatus (r : Result) : Obj :=
  .inst .result (coreFields ++ [("_Result__resourceId", optStrObj r.resourceId), ("_Result__decision", decisionObj r.decision),
    ("_Result__status", .inst .status coreFields), ("_Result__obligations", .atom .none)])

private theorem copy_status (s : StatusCode) : (statusObj s).deepcopy = .ok (.inst .status coreFields) := by
  have h2 : Cls.status.hasSetstate = true := by decide
  simp [statusObj, Obj.deepcopy, Cls.stateComplete, s_status, core, coreFields, Obj.deepcopyFields, Cls.rebuild, h2, bind,
    Except.bind]

private theorem copy_decision (d : Decision) : (decisionObj d).deepcopy = .ok (decisionObj d) := by
  have h2 : Cls.decision.hasSetstate = true := by decide
  simp [decisionObj, Obj.deepcopy, Cls.stateComplete, s_decision, Obj.deepcopyFields, Cls.rebuild, h2, bind, Except.bind]

private theorem copy_obligation (o : Obligation) : (obligationObj o).deepcopy = .error .attributeError := by
  simp [obligationObj, Obj.deepcopy, Cls.stateComplete, s_obligation, core]

private theorem copy_result (r : Result) : (resultObj r).deepcopy =
    if r.obligations ≠ [] then .error .attributeError else .ok (withoutStatus r) := by
  have h2 : Cls.result.hasSetstate = true := by decide
  rcases r with ⟨d, s, rid, obs⟩
  cases obs with
  | nil =>
    simp [resultObj, withoutStatus, Obj.deepcopy, Cls.stateComplete, s_result, core, coreFields, Obj.deepcopyFields,
      Cls.rebuild, h2, bind, Except.bind, copy_optStr, copy_decision, copy_status]
  | cons o os =>
    simp [resultObj, Obj.deepcopy, Cls.stateComplete, s_result, core, coreFields, Obj.deepcopyFields,
      Cls.rebuild, h2, bind, Except.bind, copy_optStr, copy_decision, copy_status, copy_obligation]

/-- C75, deep copies of responses: the copy has the same results with the same decisions and
resource identifiers, but their status objects have nothing in them. A result with an obligation
cannot be copied. -/
theorem C75_deepcopy_response_partial (r : Response) :
    ((∀ x ∈ r.results, x.obligations = []) → (responseObj r).deepcopy =
      .ok (.inst .response (coreFields ++ [("_Response__results", .typed "Result" (r.results.map withoutStatus))]))) ∧
    ((∃ x ∈ r.results, x.obligations ≠ []) → (responseObj r).deepcopy = .error .attributeError) := by
  have h2 : Cls.response.hasSetstate = true := by decide
  have hl := deepcopy_items (t := "Result") copy_result (fun _ => by rfl) r.results
  constructor
  · intro h
    rw [if_neg (by simpa using h)] at hl
    simp [responseObj, Obj.deepcopy, Cls.stateComplete, s_response, core, coreFields, Obj.deepcopyFields,
      Cls.rebuild, h2, bind, Except.bind, hl]
  · intro h
    rw [if_pos h] at hl
    simp [responseObj, Obj.deepcopy, Cls.stateComplete, s_response, core, coreFields, Obj.deepcopyFields,
      Cls.rebuild, h2, bind, Except.bind, hl]

/-- C75: what a program reads from the deep copy of a response without obligations: all decisions
and resource identifiers, and AttributeError for every status code. -/
theorem C75_deepcopy_response_reads (r : Response) (h : ∀ x ∈ r.results, x.obligations = []) (i : Nat) (x : Result)
    (hi : r.results[i]? = some x) :
    ∃ c, (responseObj r).deepcopy = .ok c ∧
      atomFound [.field "_Response__results", .item i, .field "_Result__decision", .field "_Decision__value"] c =
        some (.str x.decision.name) ∧
      (∀ rest, atomFound ([.field "_Response__results", .item i, .field "_Result__resourceId"] ++ rest) c =
        atomFound ([.field "_Response__results", .item i, .field "_Result__resourceId"] ++ rest) (responseObj r)) ∧
      (∀ rest, atomFound ([.field "_Response__results", .item i, .field "_Result__status",
        .field "_Status__statusCode"] ++ rest) c = none) := by
  refine ⟨_, (C75_deepcopy_response_partial r).1 h, ?_, fun rest => ?_, fun rest => ?_⟩
  · simp [atomFound, hops, coreFields, List.lookup, hi, withoutStatus, decisionObj]
  · simp [atomFound, hops, coreFields, List.lookup, hi, withoutStatus, responseObj, resultObj]
  · simp [atomFound, hops, coreFields, List.lookup, hi, withoutStatus]

/-! ## Deep copies of requests -/

private theorem copy_value (v : AttrVal) : (valueObj v).deepcopy = .ok (.inst .value []) := by
  have h1 : Cls.value.hasSetstate = false := by decide
  have h2 : Cls.value.hasDict = true := by decide
  simp [valueObj, Obj.deepcopy, Cls.stateComplete, s_value, core, coreFields, Obj.deepcopyFields, Cls.rebuild, h1, h2, bind,
    Except.bind]

private theorem copy_attribute (a : Attribute) : (attributeObj a).deepcopy = .error .attributeError := by
  have h1 : Cls.attribute.hasSetstate = false := by decide
  have h2 : Cls.attribute.hasDict = false := by decide
  have hl := deepcopy_items (e := .typeError) (bad := fun _ => False) (t := "AttributeValue")
    (fun v => by rw [if_neg id]; exact copy_value v) (fun _ => by rfl) a.values
  simp only [and_false, exists_false, if_false] at hl
  simp [attributeObj, Obj.deepcopy, Cls.stateComplete, s_attribute, coreFields, Obj.deepcopyFields, Cls.rebuild, h1, h2,
    bind, Except.bind, copy_optStr, hl]

private theorem copy_attributes (as : List Attribute) :
    (Obj.typed "Attribute" (as.map attributeObj)).deepcopy =
      if as ≠ [] then .error .attributeError else .ok (.typed "Attribute" []) := by
  cases as with
  | nil => simp [Obj.deepcopy, Obj.deepcopyItems, bind, Except.bind]
  | cons a as => simp [Obj.deepcopy, Obj.deepcopyItems, copy_attribute, bind, Except.bind]

/-- A subject that has lost its category (and has no attributes). -/
def Spec.bareSubject : Obj := .inst .subject (coreFields ++ [attributesField []])

private theorem copy_subject (s : CtxSubject) : (subjectObj s).deepcopy =
    if s.attributes ≠ [] then .error .attributeError else .ok bareSubject := by
  have h2 : Cls.subject.hasSetstate = true := by decide
  rcases s with ⟨c, as⟩
  cases as with
  | nil =>
    simp [subjectObj, bareSubject, attributesField, Obj.deepcopy, Cls.stateComplete, s_subject, core, coreFields,
      Obj.deepcopyFields, Obj.deepcopyItems, Cls.rebuild, h2, bind, Except.bind]
  | cons a as =>
    simp [subjectObj, attributesField, Obj.deepcopy, Cls.stateComplete, s_subject, core, coreFields,
      Obj.deepcopyFields, Obj.deepcopyItems, copy_attribute, bind, Except.bind]

private theorem copy_resource (r : CtxResource) : (resourceObj r).deepcopy =
    if r.attributes ≠ [] then .error .attributeError else .ok (resourceObj r) := by
  have h2 : Cls.resource.hasSetstate = true := by decide
  rcases r with ⟨as, c⟩
  cases as with
  | nil =>
    simp [resourceObj, attributesField, Obj.deepcopy, Cls.stateComplete, s_resource, core, coreFields,
      Obj.deepcopyFields, Obj.deepcopyItems, Cls.rebuild, h2, bind, Except.bind, copy_optStr]
  | cons a as =>
    simp [resourceObj, attributesField, Obj.deepcopy, Cls.stateComplete, s_resource, core, coreFields,
      Obj.deepcopyFields, Obj.deepcopyItems, copy_attribute, bind, Except.bind]

private theorem copy_part (c : Cls) (hc : c = .action ∨ c = .environment) (p : Option (List Attribute)) :
    (partObj c p).deepcopy = if p.getD [] ≠ [] then .error .attributeError else .ok (partObj c p) := by
  have h2 : Cls.action.hasSetstate = true := by decide
  have h3 : Cls.environment.hasSetstate = true := by decide
  cases p with
  | none => simp [partObj, Obj.deepcopy]
  | some as =>
    rcases hc with rfl | rfl
    · cases as with
      | nil =>
        simp [partObj, attributesField, Obj.deepcopy, Cls.stateComplete, s_action, core, coreFields,
          Obj.deepcopyFields, Obj.deepcopyItems, Cls.rebuild, h2, bind, Except.bind]
      | cons a as =>
        simp [partObj, attributesField, Obj.deepcopy, Cls.stateComplete, s_action, core, coreFields,
          Obj.deepcopyFields, Obj.deepcopyItems, copy_attribute, bind, Except.bind]
    · cases as with
      | nil =>
        simp [partObj, attributesField, Obj.deepcopy, Cls.stateComplete, s_environment, core, coreFields,
          Obj.deepcopyFields, Obj.deepcopyItems, Cls.rebuild, h3, bind, Except.bind]
      | cons a as =>
        simp [partObj, attributesField, Obj.deepcopy, Cls.stateComplete, s_environment, core, coreFields,
          Obj.deepcopyFields, Obj.deepcopyItems, copy_attribute, bind, Except.bind]

/-- C75, deep copies of requests: a request with an attribute cannot be copied; one without
attributes can, but the subjects' categories are lost. -/
theorem C75_deepcopy_request (r : ReqData) (handler selector : Atom) :
    (allAttributes r ≠ [] → (requestObj r handler selector).deepcopy = .error .attributeError) ∧
    (allAttributes r = [] → (requestObj r handler selector).deepcopy =
      .ok (.inst .request (coreFields ++ [
        ("_Request__subjects", .typed "Subject" (r.subjects.map fun _ => bareSubject)),
        ("_Request__resources", .typed "Resource" (r.resources.map resourceObj)),
        ("_Request__action", partObj .action r.action),
        ("_Request__environment", partObj .environment r.environment),
        ("_Request__ctxHandler", .atom handler),
        ("_Request__attributeSelector", .atom selector)]))) := by
  have h2 : Cls.request.hasSetstate = true := by decide
  have hs := deepcopy_items (t := "Subject") copy_subject (fun _ => by decide) r.subjects
  have hr := deepcopy_items (t := "Resource") copy_resource (fun _ => by rfl) r.resources
  have ha := copy_part .action (.inl rfl) r.action
  have he := copy_part .environment (.inr rfl) r.environment
  have hsplit : allAttributes r = [] ↔ (¬ ∃ s ∈ r.subjects, s.attributes ≠ []) ∧ (¬ ∃ x ∈ r.resources, x.attributes ≠ []) ∧
      r.action.getD [] = [] ∧ r.environment.getD [] = [] := by
    simp [allAttributes]
  have hrun : (requestObj r handler selector).deepcopy = (do
      let s ← Obj.deepcopyItems "Subject" (r.subjects.map subjectObj)
      let x ← Obj.deepcopyItems "Resource" (r.resources.map resourceObj)
      let a ← (partObj .action r.action).deepcopy
      let e ← (partObj .environment r.environment).deepcopy
      .ok (.inst .request (coreFields ++ [("_Request__subjects", .typed "Subject" s), ("_Request__resources", .typed "Resource" x),
        ("_Request__action", a), ("_Request__environment", e), ("_Request__ctxHandler", .atom handler),
        ("_Request__attributeSelector", .atom selector)]))) := by
    simp [requestObj, Obj.deepcopy, Cls.stateComplete, s_request, core, coreFields, Obj.deepcopyFields, Cls.rebuild, h2]
    cases Obj.deepcopyItems "Subject" (r.subjects.map subjectObj) with
    | error e => rfl
    | ok s =>
      cases Obj.deepcopyItems "Resource" (r.resources.map resourceObj) with
      | error e => rfl
      | ok x =>
        cases (partObj .action r.action).deepcopy with
        | error e => rfl
        | ok a => cases (partObj .environment r.environment).deepcopy <;> rfl
  rw [hrun, hs, hr, ha, he]
  constructor
  · intro h
    rw [Ne, hsplit] at h
    by_cases h1 : ∃ s ∈ r.subjects, s.attributes ≠ []
    · rw [if_pos h1]; rfl
    · rw [if_neg h1]
      by_cases h2 : ∃ x ∈ r.resources, x.attributes ≠ []
      · rw [if_pos h2]; rfl
      · rw [if_neg h2]
        by_cases h3 : r.action.getD [] = []
        · by_cases h4 : r.environment.getD [] = []
          · exact absurd ⟨h1, h2, h3, h4⟩ h
          · rw [if_neg (fun hn => hn h3), if_pos h4]; rfl
        · rw [if_pos h3]; rfl
  · intro h
    obtain ⟨h1, h2, h3, h4⟩ := hsplit.1 h
    rw [if_neg h1, if_neg h2, if_neg (fun hn => hn h3), if_neg (fun hn => hn h4)]
    rfl

/-! ## Pickles -/

mutual
private theorem loads_error : (o : Obj) → ∀ e, o.loads = .error e → e = .attributeError
  | .atom _, e, h => by simp [Obj.loads] at h
  | .typed t items, e, h => by
    have ih := loadsItems_error items
    simp only [Obj.loads] at h
    cases hi : Obj.loadsItems items with
    | error e' => rw [hi] at h; cases h; exact ih _ hi
    | ok os =>
      rw [hi] at h
      simp only [bind, Except.bind] at h
      split at h
      · exact nomatch h
      · cases h; rfl
  | .inst c fs, e, h => by
    have ih := loadsFields_error fs
    simp only [Obj.loads] at h
    cases hi : Obj.loadsFields fs with
    | error e' => rw [hi] at h; cases h; exact ih _ hi
    | ok os =>
      rw [hi] at h
      simp only [bind, Except.bind, Cls.rebuild] at h
      split at h
      · exact nomatch h
      · split at h
        · exact nomatch h
        · cases h; rfl
private theorem loadsItems_error : (os : List Obj) → ∀ e, Obj.loadsItems os = .error e → e = .attributeError
  | [], e, h => by simp [Obj.loadsItems] at h
  | o :: os, e, h => by
    have ih1 := loads_error o
    have ih2 := loadsItems_error os
    simp only [Obj.loadsItems] at h
    cases hi : o.loads with
    | error e' => rw [hi] at h; cases h; exact ih1 _ hi
    | ok o' =>
      rw [hi] at h
      cases hj : Obj.loadsItems os with
      | error e' => rw [hj] at h; cases h; exact ih2 _ hj
      | ok os' => rw [hj] at h; exact nomatch h
private theorem loadsFields_error : (fs : List (String × Obj)) → ∀ e, Obj.loadsFields fs = .error e → e = .attributeError
  | [], e, h => by simp [Obj.loadsFields] at h
  | (n, o) :: fs, e, h => by
    have ih1 := loads_error o
    have ih2 := loadsFields_error fs
    simp only [Obj.loadsFields] at h
    cases hi : o.loads with
    | error e' => rw [hi] at h; cases h; exact ih1 _ hi
    | ok o' =>
      rw [hi] at h
      cases hj : Obj.loadsFields fs with
      | error e' => rw [hj] at h; cases h; exact ih2 _ hj
      | ok os' => rw [hj] at h; exact nomatch h
end

private theorem loads_list (t : String) (items : List Obj) :
    (Obj.typed t items).loads = if items = [] then .ok (.typed t []) else .error .attributeError := by
  cases items with
  | nil => simp [Obj.loads, Obj.loadsItems, bind, Except.bind]
  | cons o os =>
    rw [if_neg (by simp)]
    simp only [Obj.loads]
    cases h : Obj.loadsItems (o :: os) with
    | error e => rw [loadsItems_error _ _ h]; rfl
    | ok l =>
      have hne : l ≠ [] := by
        rintro rfl
        simp only [Obj.loadsItems] at h
        cases h1 : o.loads with
        | error e => rw [h1] at h; exact nomatch h
        | ok o' =>
          cases h2 : Obj.loadsItems os with
          | error e => rw [h1, h2] at h; exact nomatch h
          | ok os' => rw [h1, h2] at h; exact nomatch h
      simp [bind, Except.bind, hne]

/-- What is in the pickle of an attribute without values. -/
private def dAttr (a : Attribute) : Obj :=
  .inst .attribute [("_Attribute__attributeValues", .typed "AttributeValue" []), ("_Attribute__dataType", optStrObj a.dataType),
    ("_Attribute__attributeId", optStrObj a.attributeId), ("_Attribute__issuer", optStrObj a.issuer)]

private theorem dump_value (v : AttrVal) : (valueObj v).dumps = .error .picklingError := by
  simp [valueObj, Obj.dumps, Cls.stateComplete, s_value, core, coreFields]

private theorem dump_attribute (a : Attribute) : (attributeObj a).dumps =
    if a.values ≠ [] then .error .picklingError else .ok (dAttr a) := by
  cases h : a.values with
  | nil =>
    simp [h, attributeObj, dAttr, Obj.dumps, Cls.stateComplete, s_attribute, coreFields, Obj.dumpsFields, Obj.dumpsItems, bind,
      Except.bind, dump_optStr]
  | cons v vs =>
    simp [h, attributeObj, Obj.dumps, Cls.stateComplete, s_attribute, coreFields, Obj.dumpsFields, Obj.dumpsItems, bind,
      Except.bind, dump_value]

/-- Some attribute has a value. -/
private def Valued (as : List Attribute) : Prop := ∃ a ∈ as, a.values ≠ []

private instance (as : List Attribute) : Decidable (Valued as) := inferInstanceAs (Decidable (∃ a ∈ as, a.values ≠ []))

private theorem dump_attributes (as : List Attribute) : Obj.dumpsItems (as.map attributeObj) =
    if Valued as then .error .picklingError else .ok (as.map dAttr) := dumps_items dump_attribute as

private def dField (as : List Attribute) : String × Obj := ("_RequestChildBase__attributes", .typed "Attribute" (as.map dAttr))

private theorem dump_subject (s : CtxSubject) : (subjectObj s).dumps =
    if Valued s.attributes then .error .picklingError else .ok (.inst .subject (coreFields ++ [dField s.attributes])) := by
  simp only [subjectObj, attributesField, Obj.dumps, Cls.stateComplete, s_subject, core, coreFields, Obj.dumpsFields, bind,
    Except.bind, dump_attributes]
  by_cases h : Valued s.attributes <;> simp [h, Obj.dumpsFields, Obj.dumps, dump_attributes, dField, bind, Except.bind]

private theorem dump_resource (r : CtxResource) : (resourceObj r).dumps =
    if Valued r.attributes then .error .picklingError else
      .ok (.inst .resource (coreFields ++ [dField r.attributes, ("_Resource__resourceContent", optStrObj r.content)])) := by
  simp only [resourceObj, attributesField, Obj.dumps, Cls.stateComplete, s_resource, core, coreFields, Obj.dumpsFields, bind,
    Except.bind, dump_attributes]
  by_cases h : Valued r.attributes <;> simp [h, Obj.dumpsFields, Obj.dumps, dump_attributes, dField, bind, Except.bind, dump_optStr]

private def dPart (c : Cls) : Option (List Attribute) → Obj
  | none => .atom .none
  | some as => .inst c (coreFields ++ [dField as])

private theorem dump_part (c : Cls) (hc : c = .action ∨ c = .environment) (p : Option (List Attribute)) :
    (partObj c p).dumps = if Valued (p.getD []) then .error .picklingError else .ok (dPart c p) := by
  cases p with
  | none => simp [partObj, dPart, Obj.dumps, Valued]
  | some as =>
    simp only [Option.getD_some]
    rcases hc with rfl | rfl
    · simp only [partObj, dPart, attributesField, Obj.dumps, Cls.stateComplete, s_action, core, coreFields, Obj.dumpsFields, bind,
        Except.bind, dump_attributes]
      by_cases h : Valued as <;> simp [h, Obj.dumpsFields, Obj.dumps, dump_attributes, dField, bind, Except.bind]
    · simp only [partObj, dPart, attributesField, Obj.dumps, Cls.stateComplete, s_environment, core, coreFields, Obj.dumpsFields,
        bind, Except.bind, dump_attributes]
      by_cases h : Valued as <;> simp [h, Obj.dumpsFields, Obj.dumps, dump_attributes, dField, bind, Except.bind]

private theorem loads_inst (c : Cls) (fs : List (String × Obj)) :
    (Obj.inst c fs).loads = (do c.rebuild (← Obj.loadsFields fs)) := by simp only [Obj.loads]

private theorem loadsFields_cons (n : String) (o : Obj) (fs : List (String × Obj)) :
    Obj.loadsFields ((n, o) :: fs) = (do
      let o' ← o.loads
      .ok ((n, o') :: (← Obj.loadsFields fs))) := by simp only [Obj.loadsFields]

private theorem loadsFields_core (fs : List (String × Obj)) :
    Obj.loadsFields (coreFields ++ fs) = (do .ok (coreFields ++ (← Obj.loadsFields fs))) := by
  simp only [coreFields, List.map_cons, List.map_nil, List.cons_append, List.nil_append, Obj.loadsFields, Obj.loads]
  cases Obj.loadsFields fs <;> rfl

private theorem loads_core_error {c : Cls} {n : String} {o : Obj} {fs : List (String × Obj)} {e : CopyExc}
    (h : o.loads = .error e) : (Obj.inst c (coreFields ++ (n, o) :: fs)).loads = .error e := by
  rw [loads_inst, loadsFields_core, loadsFields_cons, h]; rfl

private theorem load_part (c : Cls) (hc : c = .action ∨ c = .environment) (p : Option (List Attribute)) :
    (dPart c p).loads = if p.getD [] ≠ [] then .error .attributeError else .ok (partObj c p) := by
  have h2 : Cls.action.hasSetstate = true := by decide
  have h3 : Cls.environment.hasSetstate = true := by decide
  cases p with
  | none => simp [partObj, dPart, Obj.loads]
  | some as =>
    cases as with
    | nil =>
      rcases hc with rfl | rfl <;>
        simp [partObj, dPart, attributesField, dField, Obj.loads, coreFields, Obj.loadsFields, Obj.loadsItems, bind, Except.bind,
          Cls.rebuild, h2, h3]
    | cons a as =>
      rw [Option.getD_some, if_pos (by simp)]
      simp only [dPart, dField]
      exact loads_core_error (by rw [loads_list]; simp)

private theorem load_request (s x : List Obj) (a e : Option (List Attribute)) (h k : Atom) :
    (Obj.inst .request (coreFields ++ [("_Request__subjects", .typed "Subject" s),
        ("_Request__resources", .typed "Resource" x), ("_Request__action", dPart .action a),
        ("_Request__environment", dPart .environment e), ("_Request__ctxHandler", .atom h),
        ("_Request__attributeSelector", .atom k)])).loads =
      if s ≠ [] ∨ x ≠ [] ∨ a.getD [] ≠ [] ∨ e.getD [] ≠ [] then .error .attributeError
      else .ok (.inst .request (coreFields ++ [("_Request__subjects", .typed "Subject" []),
        ("_Request__resources", .typed "Resource" []), ("_Request__action", partObj .action a),
        ("_Request__environment", partObj .environment e), ("_Request__ctxHandler", .atom h),
        ("_Request__attributeSelector", .atom k)])) := by
  have h2 : Cls.request.hasSetstate = true := by decide
  rw [loads_inst, loadsFields_core]
  simp only [loadsFields_cons, loads_list, load_part .action (.inl rfl), load_part .environment (.inr rfl)]
  by_cases h1 : s = []
  · by_cases h3 : x = []
    · by_cases h4 : a.getD [] = []
      · by_cases h5 : e.getD [] = []
        · simp [h1, h3, h4, h5, bind, Except.bind, Obj.loads, Obj.loadsFields, Cls.rebuild, h2]
        · simp [h1, h3, h4, h5, bind, Except.bind]
      · simp [h1, h3, h4, bind, Except.bind]
    · simp [h1, h3, bind, Except.bind]
  · simp [h1, bind, Except.bind]

/-- C75, pickles of requests. -/
theorem C75_pickle_request (r : ReqData) (handler selector : Atom) :
    ((∃ a ∈ allAttributes r, a.values ≠ []) → (requestObj r handler selector).pickle = .error .picklingError) ∧
    ((∀ a ∈ allAttributes r, a.values = []) → (allAttributes r ≠ [] ∨ r.subjects ≠ [] ∨ r.resources ≠ []) →
      (requestObj r handler selector).pickle = .error .attributeError) ∧
    (allAttributes r = [] → r.subjects = [] → r.resources = [] →
      (requestObj r handler selector).pickle = .ok (requestObj r handler selector)) := by
  have hs := dumps_items dump_subject r.subjects
  have hr := dumps_items dump_resource r.resources
  have ha := dump_part .action (.inl rfl) r.action
  have he := dump_part .environment (.inr rfl) r.environment
  have hsplit : (∃ a ∈ allAttributes r, a.values ≠ []) ↔ (∃ s ∈ r.subjects, Valued s.attributes) ∨
      (∃ x ∈ r.resources, Valued x.attributes) ∨ Valued (r.action.getD []) ∨ Valued (r.environment.getD []) := by
    simp only [allAttributes, List.mem_append, List.mem_flatMap, Valued, or_assoc]
    constructor
    · rintro ⟨a, ⟨s, hs, ha⟩ | ⟨s, hs, ha⟩ | ha | ha, hv⟩
      · exact .inl ⟨s, hs, a, ha, hv⟩
      · exact .inr (.inl ⟨s, hs, a, ha, hv⟩)
      · exact .inr (.inr (.inl ⟨a, ha, hv⟩))
      · exact .inr (.inr (.inr ⟨a, ha, hv⟩))
    · rintro (⟨s, hs, a, ha, hv⟩ | ⟨s, hs, a, ha, hv⟩ | ⟨a, ha, hv⟩ | ⟨a, ha, hv⟩)
      · exact ⟨a, .inl ⟨s, hs, ha⟩, hv⟩
      · exact ⟨a, .inr (.inl ⟨s, hs, ha⟩), hv⟩
      · exact ⟨a, .inr (.inr (.inl ha)), hv⟩
      · exact ⟨a, .inr (.inr (.inr ha)), hv⟩
  have hrun : (requestObj r handler selector).dumps = (do
      let s ← Obj.dumpsItems (r.subjects.map subjectObj)
      let x ← Obj.dumpsItems (r.resources.map resourceObj)
      let a ← (partObj .action r.action).dumps
      let e ← (partObj .environment r.environment).dumps
      .ok (.inst .request (coreFields ++ [("_Request__subjects", .typed "Subject" s), ("_Request__resources", .typed "Resource" x),
        ("_Request__action", a), ("_Request__environment", e), ("_Request__ctxHandler", .atom handler),
        ("_Request__attributeSelector", .atom selector)]))) := by
    simp [requestObj, Obj.dumps, Cls.stateComplete, s_request, core, coreFields, Obj.dumpsFields]
    cases Obj.dumpsItems (r.subjects.map subjectObj) with
    | error e => rfl
    | ok s =>
      cases Obj.dumpsItems (r.resources.map resourceObj) with
      | error e => rfl
      | ok x =>
        cases (partObj .action r.action).dumps with
        | error e => rfl
        | ok a => cases (partObj .environment r.environment).dumps <;> rfl
  have hno : (∀ a ∈ allAttributes r, a.values = []) → (requestObj r handler selector).pickle =
      if r.subjects ≠ [] ∨ r.resources ≠ [] ∨ r.action.getD [] ≠ [] ∨ r.environment.getD [] ≠ []
      then .error .attributeError
      else .ok (.inst .request (coreFields ++ [("_Request__subjects", .typed "Subject" []),
        ("_Request__resources", .typed "Resource" []), ("_Request__action", partObj .action r.action),
        ("_Request__environment", partObj .environment r.environment), ("_Request__ctxHandler", .atom handler),
        ("_Request__attributeSelector", .atom selector)])) := by
    intro h
    have hn : ¬ ∃ a ∈ allAttributes r, a.values ≠ [] := fun ⟨a, ha, hv⟩ => hv (h a ha)
    rw [hsplit] at hn
    simp only [not_or] at hn
    obtain ⟨h1, h2, h3, h4⟩ := hn
    rw [Obj.pickle, hrun, hs, hr, ha, he, if_neg h1, if_neg h2, if_neg h3, if_neg h4]
    simp only [bind, Except.bind]
    rw [load_request]
    simp
  refine ⟨fun h => ?_, fun h hne => ?_, fun h h1 h2 => ?_⟩
  · rw [hsplit] at h
    rw [Obj.pickle, hrun, hs, hr, ha, he]
    by_cases h1 : ∃ s ∈ r.subjects, Valued s.attributes
    · rw [if_pos h1]; rfl
    · rw [if_neg h1]
      by_cases h2 : ∃ x ∈ r.resources, Valued x.attributes
      · rw [if_pos h2]; rfl
      · rw [if_neg h2]
        by_cases h3 : Valued (r.action.getD [])
        · rw [if_pos h3]; rfl
        · rw [if_neg h3]
          have h4 : Valued (r.environment.getD []) := ((h.resolve_left h1).resolve_left h2).resolve_left h3
          rw [if_pos h4]; rfl
  · rw [hno h, if_pos]
    by_cases h1 : r.subjects = []
    · by_cases h2 : r.resources = []
      · rcases hne with hne | hne | hne
        · by_cases h3 : r.action.getD [] = []
          · refine .inr (.inr (.inr fun h4 => hne ?_))
            simp [allAttributes, h1, h2, h3, h4]
          · exact .inr (.inr (.inl h3))
        · exact absurd h1 hne
        · exact absurd h2 hne
      · exact .inr (.inl h2)
    · exact .inl h1
  · have h' := h
    simp only [allAttributes, h1, h2, List.flatMap_nil, List.nil_append, List.append_eq_nil_iff] at h'
    rw [hno (by simp [h]), if_neg (by simp [h1, h2, h'.1, h'.2])]
    simp [requestObj, h1, h2]

/-- C75, pickles of responses: only the response without results survives. -/
theorem C75_pickle_response (r : Response) :
    (r.results ≠ [] → (responseObj r).pickle = .error .attributeError) ∧
    (r.results = [] → (responseObj r).pickle = .ok (responseObj r)) := by
  have hset : Cls.response.hasSetstate = true := by decide
  have hstatus : ∀ s, (statusObj s).dumps = .ok (.inst .status coreFields) := fun s => by
    simp [statusObj, Obj.dumps, Cls.stateComplete, s_status, core, coreFields, Obj.dumpsFields, bind, Except.bind]
  have hdec : ∀ d, (decisionObj d).dumps = .ok (decisionObj d) := fun d => by
    simp [decisionObj, Obj.dumps, Cls.stateComplete, s_decision, Obj.dumpsFields, bind, Except.bind]
  have hob : ∀ o, (obligationObj o).dumps = .error .attributeError := fun o => by
    simp [obligationObj, Obj.dumps, Cls.stateComplete, s_obligation, core]
  have hres : ∀ x, (resultObj x).dumps = if x.obligations ≠ [] then .error .attributeError else .ok (withoutStatus x) := by
    intro x
    cases h : x.obligations with
    | nil =>
      simp [h, resultObj, withoutStatus, Obj.dumps, Cls.stateComplete, s_result, core, coreFields, Obj.dumpsFields,
        bind, Except.bind, dump_optStr, hdec, hstatus]
    | cons o os =>
      simp [h, resultObj, Obj.dumps, Cls.stateComplete, s_result, core, coreFields, Obj.dumpsFields,
        bind, Except.bind, dump_optStr, hdec, hstatus, hob]
  have hrun : (responseObj r).dumps = (do
      let l ← Obj.dumpsItems (r.results.map resultObj)
      .ok (.inst .response (coreFields ++ [("_Response__results", .typed "Result" l)]))) := by
    simp [responseObj, Obj.dumps, Cls.stateComplete, s_response, core, coreFields, Obj.dumpsFields]
    cases Obj.dumpsItems (r.results.map resultObj) <;> rfl
  rw [Obj.pickle, hrun, dumps_items hres]
  constructor
  · intro hne
    by_cases h : ∃ x ∈ r.results, x.obligations ≠ []
    · rw [if_pos h]; rfl
    · rw [if_neg h]
      simp only [bind, Except.bind]
      exact loads_core_error (by rw [loads_list, if_neg (by simpa using hne)])
  · intro h
    simp [h, bind, Except.bind, loads_inst, loadsFields_core, loadsFields_cons, loads_list, Obj.loadsFields, Cls.rebuild,
      hset, responseObj]

/-! ## Shallow copies -/

/-- C75: `copy.copy` of a request or a response is good. -/
theorem C75_copy (r : ReqData) (handler selector : Atom) (r' : Response) :
    (requestObj r handler selector).copy = .ok (requestObj r handler selector) ∧
    (responseObj r').copy = .ok (responseObj r') := by
  have h1 : Cls.request.hasSetstate = true := by decide
  have h2 : Cls.response.hasSetstate = true := by decide
  constructor
  · simp [requestObj, Obj.copy, Cls.stateComplete, s_request, core, coreFields, Cls.rebuild, h1]
  · simp [responseObj, Obj.copy, Cls.stateComplete, s_response, core, coreFields, Cls.rebuild, h2]

/-! ## Policies -/

private theorem slotted_rebuild (c : Cls) (hc : c ∈ slotted) : ∀ st, c.rebuild st = .error .attributeError := by
  have h : ∀ c ∈ slotted, c.hasSetstate = false ∧ c.hasDict = false ∧ c ≠ .value := by decide
  intro st
  simp [Cls.rebuild, (h c hc).1, (h c hc).2.1]

private theorem atoms_deepcopy (names : List String) (fields : List (String × Obj))
    (h : ∀ f ∈ fields, f.1 ∈ names → ∃ a, f.2 = .atom a) : ∃ st, Obj.deepcopyFields names fields = .ok st := by
  induction fields with
  | nil => exact ⟨[], by simp [Obj.deepcopyFields]⟩
  | cons f fs ih =>
    obtain ⟨st, hst⟩ := ih fun g hg => h g (List.mem_cons_of_mem _ hg)
    rcases f with ⟨n, o⟩
    by_cases hn : n ∈ names
    · obtain ⟨a, ha⟩ := h (n, o) (List.mem_cons_self ..) hn
      simp only at ha
      subst ha
      exact ⟨(n, .atom a) :: st, by simp [Obj.deepcopyFields, hn, Obj.deepcopy, hst, bind, Except.bind]⟩
    · exact ⟨st, by simp [Obj.deepcopyFields, hn, hst]⟩

private theorem atoms_dumps (names : List String) (fields : List (String × Obj))
    (h : ∀ f ∈ fields, f.1 ∈ names → ∃ a, f.2 = .atom a) : ∃ st, Obj.dumpsFields names fields = .ok st := by
  induction fields with
  | nil => exact ⟨[], by simp [Obj.dumpsFields]⟩
  | cons f fs ih =>
    obtain ⟨st, hst⟩ := ih fun g hg => h g (List.mem_cons_of_mem _ hg)
    rcases f with ⟨n, o⟩
    by_cases hn : n ∈ names
    · obtain ⟨a, ha⟩ := h (n, o) (List.mem_cons_self ..) hn
      simp only at ha
      subst ha
      exact ⟨(n, .atom a) :: st, by simp [Obj.dumpsFields, hn, Obj.dumps, hst, bind, Except.bind]⟩
    · exact ⟨st, by simp [Obj.dumpsFields, hn, hst]⟩

/-- C75, policies: no policy, policy set, rule, target, condition or expression can be copied or
pickled, whatever its fields are. (The hypothesis: the fields of `XacmlCoreBase` and the data
type of an expression are atoms.) -/
theorem C75_policy_violated (c : Cls) (hc : c ∈ slotted) (fields : List (String × Obj))
    (h : ∀ f ∈ fields, f.1 ∈ stateNames c.mro → ∃ a, f.2 = .atom a) :
    (Obj.inst c fields).copy = .error .attributeError ∧
    (Obj.inst c fields).deepcopy = .error .attributeError ∧
    (Obj.inst c fields).pickle = .error .attributeError := by
  have hv : c ≠ .value := by rintro rfl; revert hc; decide
  obtain ⟨st, hst⟩ := atoms_deepcopy _ _ h
  obtain ⟨du, hdu⟩ := atoms_dumps _ _ h
  refine ⟨?_, ?_, ?_⟩
  · simp only [Obj.copy, slotted_rebuild c hc]; split <;> rfl
  · simp only [Obj.deepcopy, hst, bind, Except.bind, slotted_rebuild c hc]; split <;> rfl
  · simp only [Obj.pickle, Obj.dumps, hdu, hv, if_false]
    by_cases hcm : c.stateComplete fields = true
    · simp only [hcm, if_true, bind, Except.bind, Obj.loads]
      cases hl : Obj.loadsFields du with
      | error e => rw [loadsFields_error _ _ hl]
      | ok l => exact slotted_rebuild c hc l
    · simp only [hcm, bind, Except.bind]; rfl

/-- C75: no attribute of a request can be copied. -/
theorem C75_attribute_violated (a : Attribute) :
    (attributeObj a).copy = .error .attributeError ∧ (attributeObj a).deepcopy = .error .attributeError := by
  have h1 : Cls.attribute.hasSetstate = false := by decide
  have h2 : Cls.attribute.hasDict = false := by decide
  refine ⟨?_, copy_attribute a⟩
  simp [attributeObj, Obj.copy, Cls.stateComplete, s_attribute, coreFields, Cls.rebuild, h1, h2]

/-- C75: the matches of a target and the values of an attribute do get "copied": the copy is an
object that has nothing set, so every read fails. -/
theorem C75_silent_violated (c : Cls) (hc : c = .match_ ∨ c = .value) (fields : List (String × Obj))
    (hcomplete : c.stateComplete fields = true)
    (h : ∀ f ∈ fields, f.1 ∈ stateNames c.mro → ∃ a, f.2 = .atom a) :
    (Obj.inst c fields).copy = .ok (.inst c []) ∧ (Obj.inst c fields).deepcopy = .ok (.inst c []) ∧
    ∀ n, (Obj.inst c []).read n = .error .attributeError := by
  obtain ⟨st, hst⟩ := atoms_deepcopy _ _ h
  have hr : ∀ st, c.rebuild st = .ok (.inst c []) := by
    intro st
    have h : ∀ c ∈ [Cls.match_, .value], c.hasSetstate = false ∧ c.hasDict = true := by decide
    have := h c (by rcases hc with rfl | rfl <;> simp)
    simp [Cls.rebuild, this.1, this.2]
  refine ⟨?_, ?_, fun n => rfl⟩
  · simp only [Obj.copy, hcomplete, if_true, hr]
  · simp only [Obj.deepcopy, hcomplete, if_true, hst, bind, Except.bind, hr]

/-- C75: what the objects hold tells the decisions apart, and the status codes. -/
theorem C75_names_differ : Function.Injective Decision.name ∧ Function.Injective StatusCode.urn := by
  constructor <;> intro a b h <;> cases a <;> cases b <;> first | rfl | (exact absurd h (by decide))

/-! ## Concrete cases -/

/-- Non-vacuity: a response with a decision; its deep copy has lost the status code. -/
example : ∃ (r : Response) (c : Obj), (responseObj r).deepcopy = .ok c ∧ ¬ SameReading (responseObj r) c := by
  refine ⟨⟨[⟨.permit, .ok, some "r", []⟩]⟩, _, (C75_deepcopy_response_partial _).1 (by simp), fun h => ?_⟩
  have := h [.field "_Response__results", .item 0, .field "_Result__status", .field "_Status__statusCode",
    .field "_StatusCode__value"]
  simp [atomFound, hops, coreFields, List.lookup, withoutStatus, responseObj, resultObj, statusObj] at this

/-- Non-vacuity: a policy with its core fields. -/
example : ∃ fields, Cls.policy.stateComplete fields = true ∧
    ∀ f ∈ fields, f.1 ∈ stateNames Cls.policy.mro → ∃ a, f.2 = .atom a :=
  ⟨coreFields, by decide +kernel, by simp [coreFields]⟩

/-- Non-vacuity: a match and a value with the fields that their constructors set. -/
example : (∃ fields, Cls.match_.stateComplete fields = true ∧
      ∀ f ∈ fields, f.1 ∈ stateNames Cls.match_.mro → ∃ a, f.2 = .atom a) ∧
    ∀ v, ∃ fields, valueObj v = .inst .value fields ∧ Cls.value.stateComplete fields = true ∧
      ∀ f ∈ fields, f.1 ∈ stateNames Cls.value.mro → ∃ a, f.2 = .atom a :=
  ⟨⟨coreFields, by decide +kernel, by simp [coreFields]⟩,
    fun v => ⟨_, rfl, by simp [Cls.stateComplete, s_value, core, coreFields], by simp [coreFields]⟩⟩

end Xacml
