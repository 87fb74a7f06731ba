import Verif.Model.Py
import Verif.Model.Str
import Verif.Model.Containers

/-!
# Importing objects by name, and finding the reader of an element type

Python's import system is a parameter: which module an import finds on a search path, which attributes
objects have, and what calling them gives. Simplification: importing a module and calling an object do
not change `sys.path` themselves.
-/
namespace Xacml

/-- What Python provides. `Obj` are Python objects. -/
structure PyWorld (Obj : Type) where
  /-- `__import__(name, ..., [])` on a search path: the top-level package, once the named module is
  imported. -/
  importTop : List (List Char) → List Char → Except Exc Obj
  /-- `getattr(o, name)`; `none` stands for AttributeError. -/
  attr : Obj → List Char → Option Obj
  /-- `issubclass(c, t)`. -/
  subclass : Obj → Obj → Except Exc Bool
  /-- `os.path.exists`. -/
  exists_ : List Char → Bool
  /-- `f(*args, **kw)`. -/
  call : Obj → List Obj → List (List Char × Obj) → Except Exc Obj

/-- `s.rsplit(sep, 1)` unpacked into two variables, for a separator of one character; `none` stands for
the ValueError if the separator does not occur (Python built-in). -/
def rsplitOnce (sep : Char) (s : List Char) : Option (List Char × List Char) :=
  match s.reverse.dropWhile (· != sep) with
  | [] => none
  | _ :: r => some (r.reverse, (s.reverse.takeWhile (· != sep)).reverse)

/-- The start of `importModuleObject`: the name of the module and the names to follow from there.
Models: ndg/xacml/utils/factory.py:29-42. -/
def splitObjectName (moduleName : List Char) (objectName : Option (List Char)) :
    Except Exc (List Char × List (List Char)) :=
  match objectName with
  | some o => .ok (moduleName, [o])
  | none =>
    if moduleName.contains ':' then
      match rsplitOnce ':' moduleName with
      | none => .error .valueError
      | some (m, o) => .ok (m, if o.contains '.' then strSplit ['.'] o else [o])
    else
      match rsplitOnce '.' moduleName with
      | none => .error .valueError
      | some (m, o) => .ok (m, [o])

/-- A loop of `getattr`s. Models: ndg/xacml/utils/factory.py:46-48, 54-55. -/
def getAttrs {Obj : Type} (w : PyWorld Obj) : Obj → List (List Char) → Except Exc Obj
  | o, [] => .ok o
  | o, a :: as =>
    match w.attr o a with
    | none => .error .attributeError
    | some o' => getAttrs w o' as

/-- `importModuleObject`; `path` is `sys.path`. The AttributeError of the first loop is replaced by
another AttributeError. Models: ndg/xacml/utils/factory.py:17-62. -/
def importModuleObject {Obj : Type} (w : PyWorld Obj) (path : List (List Char)) (moduleName : List Char)
    (objectName : Option (List Char)) (objectType : Option Obj) : Except Exc Obj := do
  let (m, names) ← splitObjectName moduleName objectName
  let top ← w.importTop path m
  let module ← getAttrs w top ((strSplit ['.'] m).drop 1)
  let o ← getAttrs w module names
  match objectType with
  | none => .ok o
  | some t =>
    if ← w.subclass o t then .ok o else .error .typeError

/-! ## callModuleObject -/

/-- `sys.path` is a reference to a list; `lists` are the list objects of the program. -/
structure SysPath where
  lists : List (List (List Char))
  cur : Nat

/-- The directories `sys.path` names. -/
def SysPath.dirs (s : SysPath) : List (List Char) := s.lists[s.cur]?.getD []

/-- `sys.path.append(d)`: the list object is changed. -/
def SysPath.append (s : SysPath) (d : List Char) : SysPath :=
  { s with lists := s.lists.set s.cur (s.dirs ++ [d]) }

/-- `IOError`. -/
def ioError : Exc := .other 5

/-- The arguments of `callModuleObject`. -/
structure CallArgs (Obj : Type) where
  moduleName : List Char
  objectName : Option (List Char) := none
  moduleFilePath : Option (List Char) := none
  objectType : Option Obj := none
  objectArgs : List Obj := []
  objectProperties : List (List Char × Obj) := []

/-- The inner `try: ... finally: ...`: the backup is a reference to the same list object.
Models: ndg/xacml/utils/factory.py:93-124. -/
def importOnPath {Obj : Type} (w : PyWorld Obj) (s : SysPath) (a : CallArgs Obj) : Except Exc Obj × SysPath :=
  let plain (s : SysPath) := importModuleObject w s.dirs a.moduleName a.objectName a.objectType
  match a.moduleFilePath with
  | none => (plain s, s)
  | some d =>
    if d = [] then (plain s, s)
    else if !w.exists_ d then (.error ioError, s)
    else
      let sysPathBak := s.cur
      let s1 := s.append d
      let r := plain s1
      -- `if sysPathBak:` asks whether the list is non-empty
      let s2 := if (s1.lists[sysPathBak]?.getD []) = [] then s1 else { s1 with cur := sysPathBak }
      (r, s2)

/-- `callModuleObject`. The two calls at the end differ only in an empty argument tuple.
Models: ndg/xacml/utils/factory.py:65-132. -/
def callModuleObject {Obj : Type} (w : PyWorld Obj) (s : SysPath) (a : CallArgs Obj) : Except Exc Obj × SysPath :=
  match importOnPath w s a with
  | (.error e, s') => (.error e, s')
  | (.ok f, s') => (w.call f a.objectArgs a.objectProperties, s')

/-- A history of calls. -/
def callAll {Obj : Type} (w : PyWorld Obj) (s : SysPath) (as : List (CallArgs Obj)) : SysPath :=
  as.foldl (fun s a => (callModuleObject w s a).2) s

/-! ## ReaderFactory -/

/-- Classes as `ReaderFactory` sees them. -/
structure ClassFacts (Obj : Type) where
  /-- `issubclass(c, XacmlCoreBase)`. -/
  isXacml : Obj → Except Exc Bool
  /-- `issubclass(c, ETreeAbstractReader)`. -/
  isReader : Obj → Except Exc Bool
  /-- `c.__name__`. -/
  name : Obj → List Char

/-- `keyFilter` and `valueFilter` of the map of readers: TypeError for other classes (and for what is
not a class). Models: ndg/xacml/parsers/etree/factory.py:37-65. -/
def readerFilters {Obj : Type} (c : ClassFacts Obj) : Filters Obj Obj where
  key k := match c.isXacml k with
    | .ok true => .ok true
    | .ok false => .error .typeError
    | .error e => .error e
  value v := match c.isReader v with
    | .ok true => .ok true
    | .ok false => .error .typeError
    | .error e => .error e

/-- `ReaderFactory.addReader(xacmlType, readerClass)`. Models: ndg/xacml/parsers/etree/factory.py:70-80. -/
def addReader {Obj : Type} [BEq Obj] (c : ClassFacts Obj) (m : List (Obj × Obj)) (xacmlType readerClass : Obj) :
    Except Exc Unit × List (Obj × Obj) :=
  vdSet (readerFilters c) m xacmlType readerClass

/-- `ReaderFactory.getReader(xacmlType)`. Models: ndg/xacml/parsers/etree/factory.py:82-108. -/
def getReader {Obj : Type} [BEq Obj] (w : PyWorld Obj) (c : ClassFacts Obj) (path : List (List Char))
    (m : List (Obj × Obj)) (xacmlType : Obj) : Except Exc Obj :=
  match dictGet m xacmlType with
  | some r => .ok r
  | none =>
    let n := c.name xacmlType
    importModuleObject w path ("ndg.xacml.parsers.etree.".toList ++ strLower n ++ "reader.".toList ++ n ++ "Reader".toList)
      none none

/-- Calls of `addReader` one after the other. -/
def addReaders {Obj : Type} [BEq Obj] (c : ClassFacts Obj) (m : List (Obj × Obj)) (ps : List (Obj × Obj)) :
    List (Obj × Obj) :=
  ps.foldl (fun m p => (addReader c m p.1 p.2).2) m

/-! ## The package -/

/-- The modules below ndg.xacml.parsers.etree that define a class whose name ends with `Reader`, and
these classes. Models: ndg/xacml/parsers/etree/*reader.py (their class statements). -/
def readerModules : List (List Char × List Char) := [
  (chars% "actionattributedesignatorreader", chars% "ActionAttributeDesignatorReader"),
  (chars% "actionmatchreader", chars% "ActionMatchReader"),
  (chars% "actionreader", chars% "ActionReader"),
  (chars% "applyreader", chars% "ApplyReader"),
  (chars% "attributeselectorreader", chars% "AttributeSelectorReader"),
  (chars% "attributevaluereader", chars% "AttributeValueReader"),
  (chars% "conditionreader", chars% "ConditionReader"),
  (chars% "environmentreader", chars% "EnvironmentReader"),
  (chars% "expressionreader", chars% "ExpressionReader"),
  (chars% "policybasereader", chars% "PolicyBaseReader"),
  (chars% "policydefaultsreader", chars% "PolicyDefaultsReader"),
  (chars% "policyreader", chars% "PolicyReader"),
  (chars% "policysetreader", chars% "PolicySetReader"),
  (chars% "resourceattributedesignatorreader", chars% "ResourceAttributeDesignatorReader"),
  (chars% "resourcematchreader", chars% "ResourceMatchReader"),
  (chars% "resourcereader", chars% "ResourceReader"),
  (chars% "rulereader", chars% "RuleReader"),
  (chars% "subjectattributedesignatorreader", chars% "SubjectAttributeDesignatorReader"),
  (chars% "subjectmatchreader", chars% "SubjectMatchReader"),
  (chars% "subjectreader", chars% "SubjectReader"),
  (chars% "targetchildreader", chars% "TargetChildReader"),
  (chars% "targetreader", chars% "TargetReader")]

/-- The package's readers as Python finds them: an object is the list of the names that lead to it.
Simplification: of the package only the modules and classes in `readerModules` are represented, and
submodules count as imported. -/
def packageWorld : PyWorld (List (List Char)) :=
  let root := [chars% "ndg", chars% "xacml", chars% "parsers", chars% "etree"]
  let modules := readerModules.map fun x => root ++ [x.1]
  let classes := readerModules.map fun x => root ++ [x.1, x.2]
  { importTop := fun _ m => if modules.contains (strSplit ['.'] m) then .ok [chars% "ndg"] else .error .importError
    attr := fun o a => if (modules ++ classes).any (o ++ [a]).isPrefixOf then some (o ++ [a]) else none
    subclass := fun _ _ => .error .typeError
    exists_ := fun _ => false
    call := fun _ _ _ => .error .typeError }

end Xacml
