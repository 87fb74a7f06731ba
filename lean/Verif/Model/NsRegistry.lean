import Verif.Model.PrettyPrint

/-!
# ElementTree's registry of prefixes in a program that reads policies

The standard library's `ElementTree._namespace_map` (namespace to prefix). Simplification: of the
interleaving of readers only their creation and deletion is represented; a reader whose `__init__`
raised has no backup and its `__del__` does nothing. A backup is always the dict of one reader, so
dicts are values here.
-/
namespace Xacml

/-- `XacmlPolicyBase.XACML_2_0_POLICY_NS`. Models: ndg/xacml/core/__init__.py:35, 129-130. -/
def policyNsChars : Chars := "urn:oasis:names:tc:xacml:2.0:policy:schema:os".toList

/-- What happens in a program. -/
inductive NsEvent where
  /-- A reader is created: `ETreeAbstractReader.__init__`. -/
  | newReader (r : Nat)
  /-- A reader is deleted: `ETreeAbstractReader.__del__`. -/
  | delReader (r : Nat)
  /-- `ElementTree.register_namespace(prefix, uri)`. -/
  | register (uri pfx : Chars)
  /-- `makeEtreeElement(tag, prefix, uri)`. -/
  | makeElement (uri pfx : Chars)
  deriving DecidableEq

/-- The registry, and the backups of the readers. -/
structure Registry where
  current : List (Chars × Chars)
  backups : List (Nat × List (Chars × Chars))
  deriving DecidableEq

/-- `ElementTree.register_namespace` (standard library): entries for the namespace or the prefix are
replaced. -/
def registerNamespace (m : List (Chars × Chars)) (uri pfx : Chars) : List (Chars × Chars) :=
  m.filter (fun x => !(x.1 == uri || x.2 == pfx)) ++ [(uri, pfx)]

/-- One event. Models: ndg/xacml/parsers/etree/reader.py:29-46 (readers),
ndg/xacml/parsers/etree/__init__.py:45-51 (`makeEtreeElement`). -/
def NsEvent.step (s : Registry) : NsEvent → Registry
  | .newReader r => { current := dictSet s.current [] policyNsChars, backups := dictSet s.backups r s.current }
  | .delReader r =>
    match dictGet s.backups r with
    | some m => { current := m, backups := dictErase s.backups r }
    | none => s
  | .register uri pfx => { s with current := registerNamespace s.current uri pfx }
  | .makeElement uri pfx => { s with current := dictSet s.current uri pfx }

/-- A history. -/
def runRegistry (s : Registry) (h : List NsEvent) : Registry := h.foldl NsEvent.step s

end Xacml
