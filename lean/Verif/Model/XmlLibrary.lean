import Verif.Model.Py

/-!
# Choosing the XML library
-/
namespace Xacml

/-- The two libraries. -/
inductive XmlLib where
  | lxml | elementTree
  deriving DecidableEq

/-- What the import of lxml does at some moment. -/
inductive ImportOut where
  | found
  | missing
  | fails (e : Exc)

/-- `from lxml import etree`. -/
def importLxml : ImportOut → Except Exc XmlLib
  | .found => .ok .lxml
  | .missing => .error .importError
  | .fails e => .error e

/-- `importElementTree()`; the state is `Config.use_lxml`. The standard library's ElementTree is taken to be importable.
Models: ndg/xacml/__init__.py:15-49. -/
def importElementTree (lxml : ImportOut) : Option Bool → Except Exc XmlLib × Option Bool
  | some true => (importLxml lxml, some true)
  | some false => (.ok .elementTree, some false)
  | none =>
    match lxml with
    | .found => (.ok .lxml, some true)
    | .missing => (.ok .elementTree, some false)
    | .fails e => if e = .importError then (.ok .elementTree, some false) else (.error e, some false)

/-- What happens in a process. -/
inductive LibEvent where
  /-- a module is loaded that calls `importElementTree()` -/
  | load (lxml : ImportOut)
  /-- `Config.use_lxml = value` -/
  | assign (value : Option Bool)

/-- The libraries obtained, in order, and `Config.use_lxml` at the end. -/
def libRun (c : Option Bool) : List LibEvent → List (Except Exc XmlLib) × Option Bool
  | [] => ([], c)
  | .load o :: es => let (r, c') := importElementTree o c; let (rs, c'') := libRun c' es; (r :: rs, c'')
  | .assign v :: es => libRun v es

end Xacml
