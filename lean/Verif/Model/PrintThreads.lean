import Verif.Model.NsRegistry
import Verif.Model.Prog

/-!
# Pretty printing in several threads (standard library)

`ElementTree._namespace_map` is a module attribute that holds a dictionary; `prettyPrint` ends by
binding it to another dictionary, while other threads may be about to use the old one. So the shared
state has all dictionaries and says which of them is the registry. Simplification: a step is one
access to the attribute or to a dictionary (`values` and `copy` are one step each); in between
readers do what is in `Model/Readers`, which does not involve the registry.
-/
namespace Xacml

/-- The dictionaries that are or were the registry of prefixes, and which of them
`ElementTree._namespace_map` is now. -/
structure NsShared where
  heap : List (List (Chars × Chars))
  current : Nat

namespace NsShared

/-- The contents of a dictionary. -/
def dict (s : NsShared) (r : Nat) : List (Chars × Chars) := s.heap[r]?.getD []

/-- What a thread finds that looks now. -/
def now (s : NsShared) : List (Chars × Chars) := s.dict s.current

/-- `d[uri] = p` for the dictionary `r`. -/
def assign (r : Nat) (uri p : Chars) (s : NsShared) : NsShared :=
  { s with heap := s.heap.set r (dictSet (s.dict r) uri p) }

/-- `ElementTree._namespace_map = namespace_map_backup`: the copy is a dictionary of its own.
Models: ndg/xacml/utils/etree.py:70. -/
def restore (backup : List (Chars × Chars)) (s : NsShared) : NsShared :=
  { heap := s.heap ++ [backup], current := s.heap.length }

/-- One dictionary. -/
def fresh (m : List (Chars × Chars)) : NsShared := ⟨[m], 0⟩

end NsShared

abbrev PrintThread := Prog NsShared

/-- `ElementTree._namespace_map` (the attribute). -/
def loadNsMap : PrintThread Nat := Prog.read NsShared.current

/-- The end of `_allocNsPrefix`. Models: ndg/xacml/utils/etree.py:197-202. -/
def checkNsPrefixT (uri p : Chars) (mapped : List Chars) : PrintThread (Chars × List Chars) := do
  let r ← loadNsMap
  let known ← Prog.read fun s => (nsGet (s.dict r) uri).isSome
  if known then pure (p, mapped) else Prog.throw .keyError

/-- `_allocNsPrefix`, `_getNamespacePrefix`; `mapped` is `mappedPrefixes`, which belongs to the thread. After 256 tries
the prefix is the last one tried. Models: ndg/xacml/utils/etree.py:175-202. -/
def allocNsPrefixT (uri : Chars) (mapped : List Chars) : PrintThread (Chars × List Chars) := do
  let r ← loadNsMap
  let found ← Prog.read fun s => nsGet (s.dict r) uri
  match found with
  | some p => pure (p, mapped)
  | none =>
    match ((List.range 256).map nsName).find? (fun p => !mapped.contains p) with
    | some p => do
      let r ← loadNsMap
      Prog.write (NsShared.assign r uri p)
      checkNsPrefixT uri p (mapped ++ [p])
    | none => checkNsPrefixT uri (nsName 255) mapped

/-- The loop over the attributes. Models: ndg/xacml/utils/etree.py:117-133. -/
def printAttribsT : List (Chars × Chars) → List Chars → List Chars →
    PrintThread ((Chars × List Chars) × List Chars)
  | [], d, m => pure (([], d), m)
  | (a, v) :: as, d, m =>
    if qnGetNs a = [] then do
      let r ← printAttribsT as d m
      pure ((printAttr a v ++ r.1.1, r.1.2), r.2)
    else do
      let p ← allocNsPrefixT (qnGetNs a) m
      let r ← printAttribsT as (declare d (qnGetNs a)) p.2
      pure ((nsDeclaration d p.1 (qnGetNs a) ++ printAttr (qualified p.1 (qnLocalPart a)) v ++ r.1.1, r.1.2), r.2)

mutual
/-- `_PrettyPrint.__call__`. Models: ndg/xacml/utils/etree.py:103-165. -/
def printElemT (indent space : Chars) (declared mapped : List Chars) : PElem → PrintThread (Chars × List Chars)
  | .mk tag attrib text _ children => do
    let as ← printAttribsT attrib declared mapped
    let p ← allocNsPrefixT (qnGetNs tag) as.2
    let name := qualified p.1 (qnLocalPart tag)
    let start := indent ++ '<' :: name ++ nsDeclaration as.1.2 p.1 (qnGetNs tag) ++ as.1.1 ++ '>' :: estrip text
    match children with
    | [] => pure (start ++ '<' :: '/' :: name ++ ['>'], p.2)
    | c :: cs => do
      let body ← printChildrenT (indent ++ space) (declare as.1.2 (qnGetNs tag)) p.2 (c :: cs)
      let last := ((c :: cs).getLast (List.cons_ne_nil c cs)).tail
      pure (start ++ body.1 ++ '\n' :: indent ++ estrip last ++ '<' :: '/' :: name ++ ['>'], body.2)
/-- The loop over the children. Models: ndg/xacml/utils/etree.py:153-157. -/
def printChildrenT (indent : Chars) (declared mapped : List Chars) : List PElem → PrintThread (Chars × List Chars)
  | [] => pure ([], mapped)
  | c :: cs => do
    let r ← printElemT indent fourSpaces declared mapped c
    let rest ← printChildrenT indent declared r.2 cs
    pure ('\n' :: r.1 ++ rest.1, rest.2)
end

/-- `prettyPrint(elem)`. Models: ndg/xacml/utils/etree.py:48-73. -/
def prettyPrintT (e : PElem) : PrintThread Chars := do
  let r ← loadNsMap
  let mapped ← Prog.read fun s => (s.dict r).map Prod.snd
  let r ← loadNsMap
  let backup ← Prog.read fun s => s.dict r
  let out ← printElemT [] fourSpaces [] mapped e
  Prog.write (NsShared.restore backup)
  pure out.1

/-- `makeEtreeElement(tag, p, uri)`, as far as the registry is concerned. Models: ndg/xacml/parsers/etree/__init__.py:45-51. -/
def makeElementT (uri p : Chars) : PrintThread Unit := do
  let r ← loadNsMap
  Prog.write (NsShared.assign r uri p)

/-- A reader, from `__init__` to `__del__`. Models: ndg/xacml/parsers/etree/reader.py:29-46. -/
def readerT : PrintThread Unit := do
  let r ← loadNsMap
  let backup ← Prog.read fun s => s.dict r
  let r ← loadNsMap
  Prog.write (NsShared.assign r [] policyNsChars)
  Prog.write (NsShared.restore backup)

/-- What a thread may do. -/
inductive PrintJob where
  /-- `prettyPrint(elem)`. -/
  | print (e : PElem)
  /-- A document is written in `count` elements of one namespace (and others that are made in other ways) and printed. -/
  | write (uri p : Chars) (count : Nat) (e : PElem)
  /-- Something is read. -/
  | read

/-- The elements are made one after the other. Models: ndg/xacml/parsers/etree/context.py (the writers). -/
def makeElementsT (uri p : Chars) : Nat → PrintThread Unit
  | 0 => pure ()
  | n + 1 => do
    makeElementT uri p
    makeElementsT uri p n

/-- The thread that does it; the result is the text that is printed. -/
def PrintJob.thread : PrintJob → PrintThread Chars
  | .print e => prettyPrintT e
  | .write uri p count e => do
    makeElementsT uri p count
    prettyPrintT e
  | .read => do
    readerT
    pure []

/-- Threads, each doing something. (A thread that does several things one after the other is several threads here, the
next of which gets its first turn when the one before has finished.) -/
structure Printers where
  shared : NsShared
  threads : List (PrintThread Chars)

/-- One step of thread `i`; a finished (or missing) thread does nothing. -/
def Printers.step (s : Printers) (i : Nat) : Printers :=
  match s.threads[i]? with
  | some (.act f k) => { shared := f s.shared, threads := s.threads.set i (k s.shared) }
  | _ => s

/-- After a schedule, which says who makes the next step. -/
def Printers.steps (s : Printers) (sched : List Nat) : Printers := sched.foldl Printers.step s

/-- One thread per job, none of which has started. -/
def Printers.begin (nsMap : List (Chars × Chars)) (jobs : List PrintJob) : Printers :=
  ⟨NsShared.fresh nsMap, jobs.map PrintJob.thread⟩

end Xacml
