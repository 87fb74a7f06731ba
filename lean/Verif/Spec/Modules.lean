import Verif.Model.Modules

/-! # Names of Python objects -/
namespace Xacml.Spec

/-- A name without dots and colons. -/
def Plain (n : List Char) : Prop := '.' ∉ n ∧ ':' ∉ n

/-- `a.b.c` -/
def dotted (ns : List (List Char)) : List Char := ['.'].intercalate ns

/-- Following attributes from an object. -/
inductive Reaches {Obj : Type} (w : PyWorld Obj) : Obj → List (List Char) → Obj → Prop where
  | here {o : Obj} : Reaches w o [] o
  | step {o o' x : Obj} {a : List Char} {as : List (List Char)} : w.attr o a = some o' → Reaches w o' as x → Reaches w o (a :: as) x

/-- `x` is what `names` means in the module `mods`, modules being found on `path`. -/
def ObjectAt {Obj : Type} (w : PyWorld Obj) (path mods names : List (List Char)) (x : Obj) : Prop :=
  ∃ top, w.importTop path (dotted mods) = .ok top ∧ Reaches w top (mods.tail ++ names) x

/-- The directory a call adds to the search path: a non-empty one that exists. -/
def addedDir {Obj : Type} (w : PyWorld Obj) (a : CallArgs Obj) : Option (List Char) :=
  match a.moduleFilePath with
  | none => none
  | some d => if d ≠ [] ∧ w.exists_ d = true then some d else none

/-- The check said yes. -/
def saysYes : Except Exc Bool → Bool
  | .ok b => b
  | .error _ => false

/-- The reader last registered for a type, among the registrations of readers for types. -/
def registeredReader {Obj : Type} [DecidableEq Obj] (c : ClassFacts Obj) (ps : List (Obj × Obj)) (t : Obj) : Option Obj :=
  ((ps.filter fun p => decide (p.1 = t) && saysYes (c.isXacml p.1) && saysYes (c.isReader p.2)).getLast?).map Prod.snd

/-- The classes for the elements of policies whose readers `ReaderFactory` is asked for. -/
def elementClasses : List String :=
  ["Policy", "PolicySet", "PolicyDefaults", "Target", "Subject", "Resource", "Action", "Environment",
   "SubjectMatch", "ResourceMatch", "ActionMatch", "SubjectAttributeDesignator", "ResourceAttributeDesignator",
   "ActionAttributeDesignator", "AttributeSelector", "AttributeValue", "Rule", "Condition", "Apply"]

/-- The other classes for elements of policies. -/
def elementClassesWithoutReader : List String :=
  ["EnvironmentMatch", "EnvironmentAttributeDesignator", "VariableDefinition", "VariableReference", "Obligation",
   "AttributeAssignment"]

/-- Classes seen as their names, as `ReaderFactory` sees them. -/
def byName : ClassFacts (List (List Char)) where
  isXacml _ := .ok true
  isReader _ := .ok true
  name o := o.getLastD []

end Xacml.Spec
