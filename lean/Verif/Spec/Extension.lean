import Verif.Model.Extension
import Verif.Spec.Relevance
import Verif.Spec.FunctionMap

/-!
# Specification: adding to the registries
-/
namespace Xacml.Spec
open Xacml

/-- Every entry of the first dict is in the second one. -/
def Keeps {α} (get get' : String → Option α) : Prop := ∀ k v, get k = some v → get' k = some v

/-- Everything the first set of registries offers to readers, the second one offers, too. -/
structure Enlarges (rd rd' : RdEnv) : Prop where
  classes : Keeps (fun i => rd.classMap.lookup i) (fun i => rd'.classMap.lookup i)
  readers : Keeps (dictGet rd.dtReaders) (dictGet rd'.dtReaders)
  functions : ∀ ns f, rd.fn ns = .ok f → rd'.fn ns = .ok f

/-- The data types that the designators and selectors in a policy ask for are registered. -/
def TypesKnown (classMap : List (String × AVClass)) (p : PolicyNode) : Prop :=
  (∀ cat d dt, InPolicy (.designator cat d) p → d.dataType = some dt → (classMap.lookup dt).isSome) ∧
  (∀ s dt, InPolicy (.selector s) p → s.dataType = some dt → (classMap.lookup dt).isSome)

/-- A call that only adds: a class, unless it replaces one; a reader for a data type without one; a function for an
identifier that could not be used so far; and lookups of functions. -/
inductive Adds (ext : Importer) (p : Package) : ExtEvent → Prop
  | newClass {i c} : p.classMap.lookup i = none → Adds ext p (.addClass i c true)
  | class_ {i c} : Adds ext p (.addClass i c false)
  | reader {i r} : dictGet p.dtReaders i = none → Adds ext p (.addReader i r)
  | lookup {ns} : Adds ext p (.function (.get ns))
  | loadAll : Adds ext p (.function .loadAllCore)
  | custom {ns a} : (∀ c, (p.functions.get (p.importer ext) ns).1 ≠ .ok (.cls c)) →
      Adds ext p (.function (.loadCustom ns a))

/-- A sequence of calls each of which only adds. -/
inductive AddsOnly (ext : Importer) : Package → List ExtEvent → Prop
  | done {p} : AddsOnly ext p []
  | call {p e es} : Adds ext p e → AddsOnly ext (e.step ext p) es → AddsOnly ext p (e :: es)

/-- The class in force for a data type after a sequence of calls: the last one registered with `overwrite`, or without
if there was none before. -/
def classAfter (i : String) (start : Option AVClass) (es : List ExtEvent) : Option AVClass :=
  es.foldl (fun now e => match e with
    | .addClass j c o => if j = i ∧ (o = true ∨ now = none) then some c else now
    | _ => now) start

/-- No modules other than the package's own are found below its package of functions. -/
def NoOtherModules (ext : Importer) : Prop :=
  ∀ path, (chars% "ndg.xacml.core.functions.") <+: path → ext path = .error .importError

/-- A call that looks a standard function up. -/
def LooksUp (ns : String) : ExtEvent → Prop
  | .function (.get n) => n = ns
  | .function .loadAllCore => True
  | _ => False

end Xacml.Spec
