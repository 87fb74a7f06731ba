import Verif.Model.Service
import Verif.Model.Containers

/-!
# The process-wide registries and their extension

The package keeps three registries for the whole process: the attribute value classes
(`AttributeValueClassFactory.IDENTIFIER2CLASS_MAP`), the readers of attribute values
(`DataTypeReaderClassFactory.MAP`) and the functions (`functionMap`).
-/
namespace Xacml

/-- The three registries. Models: ndg/xacml/core/attributevalue.py:274-289,
ndg/xacml/parsers/etree/attributevaluereader.py:139-155, ndg/xacml/core/functions/__init__.py:760. -/
structure Package where
  classMap : List (String × AVClass)
  dtReaders : List (String × DtReader)
  functions : FunctionMap

/-- The registries when the package has been imported. -/
def Package.initial : Package := ⟨stdClassMap, stdDtReaders, .new⟩

/-- What can be imported: the factories in the package, working with the class map as it is at the time, and other
modules. Simplification: the modules v1/regexp_match.py, v1/match.py and v2/concatenate.py look the class for strings up
when they are imported, not when a function is first used; that makes a difference only if that class is replaced.
Models: ndg/xacml/utils/factory.py:24-96 and the modules below ndg/xacml/core/functions. -/
def Package.importer (ext : Importer) (p : Package) : Importer := fun path =>
  match stdImporter p.classMap path with
  | .ok f => .ok f
  | .error _ => ext path

/-- `addClass` for a string and a class derived from AttributeValue (for others, see C37).
Models: ndg/xacml/core/attributevalue.py:317-339. -/
def registerClass (m : List (String × AVClass)) (identifier : String) (c : AVClass) (overwrite : Bool) :
    List (String × AVClass) :=
  if overwrite then dictSet m identifier c
  else if (dictGet m identifier).isNone then dictSet m identifier c
  else m

/-- Calls that change the registries. -/
inductive ExtEvent where
  | addClass (identifier : String) (c : AVClass) (overwrite : Bool)
  | addReader (identifier : String) (r : DtReader)
  | function (e : FmEvent)

/-- The registries after a call. Models: ndg/xacml/core/attributevalue.py:317-339,
ndg/xacml/parsers/etree/attributevaluereader.py:157-159 and the functions `FmEvent.step` stands for. -/
def ExtEvent.step (ext : Importer) (p : Package) : ExtEvent → Package
  | .addClass i c o => { p with classMap := registerClass p.classMap i c o }
  | .addReader i r => { p with dtReaders := dictSet p.dtReaders i r }
  | .function e => { p with functions := e.step (p.importer ext) p.functions }

/-- The registries after a sequence of calls. -/
def Package.run (ext : Importer) (p : Package) (es : List ExtEvent) : Package := es.foldl (ExtEvent.step ext) p

/-- What readers of policies find in the registries. Models: ndg/xacml/core/match.py:169-183,
ndg/xacml/core/apply.py:91-105, ndg/xacml/parsers/etree/attributevaluereader.py:41-81. -/
def Package.readers (ext : Importer) (customs : Nat → List PyVal → Except Exc PyVal) (p : Package) : RdEnv where
  fn := loadWith (p.importer ext) customs p.functions
  classMap := p.classMap
  dtReaders := p.dtReaders

/-- What the evaluator finds in them. -/
def Package.env (p : Package) (re : String → Except Exc (String → Bool)) (debug : Bool) : Env where
  re := re
  classMap := p.classMap
  debug := debug

end Xacml
