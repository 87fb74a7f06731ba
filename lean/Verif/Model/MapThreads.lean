import Verif.Model.FunctionMap
import Verif.Model.Prog

/-!
# Function lookups and registrations in several threads

The calls of `Verif.Model.FunctionMap` cut into steps; one read or write of either dictionary of
the function map is a step, calling a factory is not (factories do not use the map).

Simplification: deletions are left out. Since entries are then never removed, `return self[ns]`
after `ns in self` (functions/__init__.py:628-629), whose result is not used, is not a step.
-/
namespace Xacml

/-- `self[ns] = value`, one step. Models: ndg/xacml/core/functions/__init__.py:596-612,
ndg/xacml/utils/__init__.py:204-214. -/
def setItemT (ns : String) : FactoryOut → Prog FunctionMap Unit
  | .entry e => Prog.write fun m => { m with store := dictSet m.store ns e }
  | .none | .junk => Prog.throw .typeError

/-- `loadFunction`. Models: ndg/xacml/core/functions/__init__.py:620-691. -/
def loadFunctionT (imp : Importer) (ns : String) : Prog FunctionMap Unit := do
  let found ← Prog.read fun m => dictGet m.store ns
  match found with
  | some _ => pure ()
  | none => do
    let cached ← Prog.read fun m => dictGet m.factories ns
    match cached with
    | some f =>
      match f ns.toList with
      | .error e => Prog.throw e
      | .ok out => setItemT ns out
    | none =>
      match functionClassPath ns.toList with
      | none => Prog.throw .functionMapConfigError
      | some path =>
        match imp path with
        | .error e =>
          if e = .importError ∨ e = .attributeError then setItemT ns (.entry .notImplemented)
          else Prog.throw e
        | .ok f =>
          match f ns.toList with
          | .error e => Prog.throw e
          | .ok .none => Prog.throw (unsupportedError ns)
          | .ok out => do
            setItemT ns out
            Prog.write fun m => { m with factories := dictSet m.factories ns f }

/-- `map.get(ns)`. Models: ndg/xacml/core/functions/__init__.py:740-757. -/
def getT (imp : Importer) (ns : String) : Prog FunctionMap FnEntry := do
  let found ← Prog.read fun m => dictGet m.store ns
  match found with
  | some e => pure e
  | none => do
    loadFunctionT imp ns
    let found ← Prog.read fun m => dictGet m.store ns
    match found with
    | some e => pure e
    | none => Prog.throw .keyError

/-- `load_custom_function`. Models: ndg/xacml/core/functions/__init__.py:693-723. -/
def loadCustomT (imp : Importer) (ns : String) (a : CustomArg) : Prog FunctionMap Unit :=
  if stdFunctionNames.contains ns then Prog.throw .overwritingStdFunctionError
  else
    let install (f : Factory) : Prog FunctionMap Unit :=
      match f ns.toList with
      | .error e => Prog.throw e
      | .ok .none => Prog.throw (unsupportedError ns)
      | .ok out => setItemT ns out
    match a with
    | .factory f => install f
    | .path p =>
      match imp p.toList with
      | .error e => Prog.throw e
      | .ok f => install f
    | .notAString => Prog.throw .typeError

/-- A call made by a thread. -/
inductive MapCall where
  | get (ns : String)
  | register (ns : String) (a : CustomArg)

/-- What the thread does; a registration returns nothing. -/
def MapCall.prog (imp : Importer) : MapCall → Prog FunctionMap (Option FnEntry)
  | .get ns => do
    let e ← getT imp ns
    pure (some e)
  | .register ns a => do
    loadCustomT imp ns a
    pure none

/-- The map and the threads using it. -/
structure MapProcess where
  map : FunctionMap
  threads : List (Prog FunctionMap (Option FnEntry))

/-- Thread `i` makes a step; a finished (or missing) one does nothing. -/
def MapProcess.step (s : MapProcess) (i : Nat) : MapProcess :=
  match s.threads[i]? with
  | some (.act f k) => { map := f s.map, threads := s.threads.set i (k s.map) }
  | _ => s

/-- After a schedule. -/
def MapProcess.steps (s : MapProcess) (sched : List Nat) : MapProcess := sched.foldl MapProcess.step s

/-- One thread per call, none of which has started. -/
def MapProcess.begin (imp : Importer) (m : FunctionMap) (calls : List MapCall) : MapProcess :=
  ⟨m, calls.map (MapCall.prog imp)⟩

end Xacml
