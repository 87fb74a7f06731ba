import Verif.Model.Threads
import Verif.Spec.History
import Verif.Spec.Relevance

/-!
# Specification: schedules
-/
namespace Xacml.Spec
open Xacml

/-- The policy a PDP holds after the events, if it held `p` before. -/
def inForce (p : Option PolicyNode) : List Event → Option PolicyNode
  | [] => p
  | .install q :: es => inForce (some q) es
  | .run _ :: es => inForce p es
  | .register _ _ :: es => inForce p es

/-- The classes for data types after the events: those registered before, and the last one registered for each since. -/
def registeredClasses (m : List (String × AVClass)) : List Event → List (String × AVClass)
  | [] => m
  | .register i c :: es => registeredClasses (dictSet m i c) es
  | .run _ :: es => registeredClasses m es
  | .install _ :: es => registeredClasses m es

/-- The class for a data type after the events, if it was `o` before. -/
def lastRegistered (dt : String) (o : Option AVClass) : List Event → Option AVClass
  | [] => o
  | .register i c :: es => lastRegistered dt (if i = dt then some c else o) es
  | .run _ :: es => lastRegistered dt o es
  | .install _ :: es => lastRegistered dt o es

/-- A reading asks for values of a data type. -/
def Reading.asksFor (dt : String) : Reading → Prop
  | .designator _ d => d.dataType = some dt
  | .selector s => s.dataType = some dt

/-- A policy contains, at any depth, a designator or selector that asks for values of a data type. -/
def AsksFor (p : PolicyNode) (dt : String) : Prop := ∃ l, InPolicy l p ∧ l.asksFor dt

/-- Thread `i` has returned or raised `x`. -/
def Finished (s : Process) (i : Nat) (x : Except Exc Response) : Prop := s.threads[i]? = some (.done x)

/-- An infinite schedule that never stops giving turns to thread `i`. -/
def FairTo (i : Nat) (σ : Nat → Event) : Prop := ∀ n, ∃ m, n ≤ m ∧ σ m = .run i

end Xacml.Spec
