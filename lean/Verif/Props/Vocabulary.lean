import Verif.Spec.Vocabulary
import Verif.Model.Value

/-!
# C37, C38: the data types there are at the beginning
-/
namespace Xacml
open Spec

private theorem table_eq : stdClassMap.map (fun p => (p.1, p.2.identifier, p.2.native)) = dataTypes.map fun p => (p.1, p.1, p.2) := by
  decide +kernel

private theorem lookup_map {α β} (f : α → β) (l : List (String × α)) (d : String) :
    (l.lookup d).map f = (l.map fun p => (p.1, f p.2)).lookup d := by
  induction l with
  | nil => rfl
  | cons p l ih =>
    obtain ⟨k, v⟩ := p
    rw [List.map_cons, List.lookup_cons, List.lookup_cons]
    cases d == k <;> simp [ih]

private theorem lookup_key (l : List (String × NativeType)) (d : String) :
    (l.map fun p => (p.1, p.1, p.2)).lookup d = (l.lookup d).map fun n => (d, n) := by
  induction l with
  | nil => rfl
  | cons p l ih =>
    obtain ⟨k, v⟩ := p
    rw [List.map_cons, List.lookup_cons, List.lookup_cons]
    cases h : d == k
    · exact ih
    · rw [eq_of_beq h]; rfl

/-- C38: for every identifier there is a class from the beginning exactly if XACML defines the data type; the class
carries the identifier, and its values are of the Python type given. -/
theorem C38_types (d : String) :
    (classLookup stdClassMap (some d)).map (fun c => (c.identifier, c.native)) = (dataTypes.lookup d).map fun n => (d, n) := by
  rw [show classLookup stdClassMap (some d) = stdClassMap.lookup d from rfl, lookup_map (fun c : AVClass => (c.identifier, c.native)),
    table_eq, lookup_key]

/-- C37: different data types have different classes, and none is a subclass of another. -/
theorem C37_distinct {d₁ d₂ : String} {c₁ c₂ : AVClass} (h₁ : classLookup stdClassMap (some d₁) = some c₁)
    (h₂ : classLookup stdClassMap (some d₂) = some c₂) (h : c₁.uid = c₂.uid ∨ c₁.uid ∈ c₂.ancestors) : d₁ = d₂ := by
  have hmem : ∀ {d c}, classLookup stdClassMap (some d) = some c → (d, c) ∈ stdClassMap := by
    intro d c h
    have : ∀ l : List (String × AVClass), l.lookup d = some c → (d, c) ∈ l := by
      intro l
      induction l with
      | nil => intro h; cases h
      | cons p l ih =>
        obtain ⟨k, v⟩ := p
        intro h
        rw [List.lookup_cons] at h
        cases hd : d == k
        · rw [hd] at h; exact List.mem_cons_of_mem _ (ih h)
        · rw [hd] at h; cases h; rw [eq_of_beq hd]; exact List.mem_cons_self ..
    exact this _ h
  have key : ∀ p ∈ stdClassMap, ∀ q ∈ stdClassMap, p.2.uid = q.2.uid ∨ p.2.uid ∈ q.2.ancestors → p.1 = q.1 := by decide +kernel
  exact key _ (hmem h₁) _ (hmem h₂) h

example : (classLookup stdClassMap (some "http://www.w3.org/2001/XMLSchema#double")).map (·.native) = some .float := by decide +kernel
example : classLookup stdClassMap (some "http://www.w3.org/2001/XMLSchema#float") = none := by decide +kernel

end Xacml
