import Verif.Model.Copying

/-!
# Specification: copies
-/
namespace Xacml.Spec
open Xacml

/-- All attributes of a request. -/
def allAttributes (r : ReqData) : List Attribute :=
  r.subjects.flatMap (·.attributes) ++ r.resources.flatMap (·.attributes) ++ r.action.getD [] ++ r.environment.getD []

/-- Following fields and list positions from an object: what a program that holds the object can
read (`none` for a field that is not set, a position that does not exist, or an index into
something that is not a list). -/
inductive Hop where
  | field (name : String)
  | item (i : Nat)

def hops : List Hop → Obj → Option Obj
  | [], o => some o
  | .field n :: ss, .inst _ fs => (fs.lookup n).bind (hops ss)
  | .item i :: ss, .typed _ items => items[i]?.bind (hops ss)
  | _ :: _, _ => none

/-- The atom found there, if any. -/
def atomFound (ss : List Hop) (o : Obj) : Option Atom :=
  match hops ss o with
  | some (.atom a) => some a
  | _ => none

/-- A copy is good if everything that can be read from the original reads the same. -/
def SameReading (o o' : Obj) : Prop := ∀ ss, atomFound ss o' = atomFound ss o

/-- The classes of policies and their parts (but for matches, whose instances have a `__dict__`). -/
def slotted : List Cls :=
  [.policy, .policySet, .rule, .target, .targetChild, .condition, .designator, .selector, .apply, .policyDefaults]

end Xacml.Spec
