import Verif.Model.Eval

/-!
# Specification of attribute designators and selectors
-/
namespace Xacml.Spec
open Xacml

/-- The attribute is one the designator asks for. -/
def AttrSelected (d : Designator) (a : Attribute) : Prop :=
  a.attributeId = d.attributeId ∧ a.dataType = d.dataType ∧
    ∀ i, d.issuer = some i → a.issuer = some i

instance (d : Designator) (a : Attribute) : Decidable (AttrSelected d a) := by
  unfold AttrSelected
  exact match d.issuer with
  | none => decidable_of_iff (a.attributeId = d.attributeId ∧ a.dataType = d.dataType) (by simp)
  | some i => decidable_of_iff
      (a.attributeId = d.attributeId ∧ a.dataType = d.dataType ∧ a.issuer = some i) (by simp)

/-- The values designated among a list of attributes, in document order with multiplicity. -/
def designated (d : Designator) (attrs : List Attribute) : List AttrVal :=
  (attrs.filter (AttrSelected d ·)).flatMap fun a =>
    a.values.filter fun v => decide (some v.dataType = d.dataType)

/-- The attributes of a category of a request (`none`: the request has no such part). -/
def attributesOf (cat : Category) (r : ReqData) : Option (List Attribute) :=
  match cat with
  | .subject => some (r.subjects.flatMap (·.attributes))
  | .resource => some (r.resources.flatMap (·.attributes))
  | .action => r.action
  | .environment => r.environment

/-- `v` is an instance of the class registered for the data type. -/
def WellTyped (m : List (String × AVClass)) (dataType : Option String) (v : AttrVal) : Prop :=
  ∃ dt c, dataType = some dt ∧ m.lookup dt = some c ∧ v.isInst c = true

/-- What a designator answers when its values are `vs`. -/
def answer (m : List (String × AVClass)) (d : Designator) (vs : List AttrVal) : Except Exc PyVal :=
  if vs = [] ∧ d.mustBePresent = true then .error .missingAttributeError
  else .ok (.bag { elementType := classLookup m d.dataType, items := vs })

/-- Some value already known equals `x`. -/
def KnownIn (known : List AttrVal) (x : AttrVal) : Prop := ∃ v ∈ known, v.pyEq x = .ok true

instance (known : List AttrVal) (x : AttrVal) : Decidable (KnownIn known x) := by
  unfold KnownIn
  have : ∀ v : AttrVal, Decidable (v.pyEq x = .ok true) := fun v =>
    match h : v.pyEq x with
    | .ok true => .isTrue rfl
    | .ok false => .isFalse (by simp)
    | .error _ => .isFalse (by simp)
  exact inferInstance

/-- The attribute value held by an object, if it is one. -/
def avOf : PyVal → Option AttrVal
  | .av v => some v
  | _ => none

/-- The values a PIP answer adds to the values already known: all of them if none is known,
otherwise those different from every known value. Values delivered by a one-shot iterator are
lost when none is known (see C57). -/
def pipAdds (known : List AttrVal) : PipAnswer → List AttrVal
  | .none => []
  | .iter it =>
    let vs := it.items.filterMap avOf
    if known = [] then (if it.oneShot then [] else vs)
    else vs.filter fun x => ¬ KnownIn known x

/-- Successful evaluation of a subject designator with a PIP: for each subject in turn, its own
designated values are collected, then the PIP is queried once and its new values are added. -/
inductive SubjectValues (r : ReqData) (pip : Pip) (d : Designator) :
    List CtxSubject → List PipQuery → List AttrVal → List AttrVal → List PipQuery → Prop
  | nil (log vs) : SubjectValues r pip d [] log vs vs log
  | cons {s ss log vs ans vs' log'}
      (asked : pip log ⟨r, d⟩ = .ok ans)
      (rest : SubjectValues r pip d ss (log ++ [⟨r, d⟩])
        (vs ++ designated d s.attributes ++ pipAdds (vs ++ designated d s.attributes) ans) vs' log') :
      SubjectValues r pip d (s :: ss) log vs vs' log'

end Xacml.Spec
