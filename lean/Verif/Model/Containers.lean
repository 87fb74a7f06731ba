import Verif.Model.Str
import Verif.Model.Value

/-!
# Containers of ndg.xacml.utils and the registry of attribute value classes
-/
namespace Xacml

/-- A Python iterable: a re-iterable sequence, or a one-shot iterator (generator). -/
structure Iter (α : Type) where
  oneShot : Bool
  items : List α

/-! ## TypedList -/

/-- Mutating calls on a TypedList. `insert`, item assignment, deletion, `clear` and `reverse` are
inherited from `list`. -/
inductive TLEvent (α : Type) where
  | append (x : α)
  | extend (it : Iter α)
  | iadd (it : Iter α)
  | insert (i : Nat) (x : α)
  | setItem (i : Nat) (x : α)
  | delItem (i : Nat)
  | clear
  | reverse

/-- The check loop of `extend` and `+=`: some item is not an instance of the element type.
Models: ndg/xacml/utils/__init__.py:88-91, 101-104. -/
def typeChecks {α} (ok : α → Bool) (xs : List α) : Bool := xs.all ok

/-- A call on a TypedList with element type test `ok`. The checking loop exhausts a one-shot iterator,
so nothing is left for the second traversal.
Models: ndg/xacml/utils/__init__.py:82-118 and the methods inherited from `list` (an index that is out
of range raises IndexError, except that `insert` appends). -/
def TLEvent.step {α} (ok : α → Bool) (l : List α) : TLEvent α → Except Exc Unit × List α
  | .append x => if ok x then (.ok (), l ++ [x]) else (.error .typeError, l)
  | .extend it | .iadd it =>
    if typeChecks ok it.items then (.ok (), l ++ (if it.oneShot then [] else it.items))
    else (.error .typeError, l)
  | .insert i x => (.ok (), l.take i ++ x :: l.drop i)
  | .setItem i x => if i < l.length then (.ok (), l.set i x) else (.error .indexError, l)
  | .delItem i => if i < l.length then (.ok (), l.eraseIdx i) else (.error .indexError, l)
  | .clear => (.ok (), [])
  | .reverse => (.ok (), l.reverse)

/-- A history of calls, exceptions caught by the caller. -/
def tlRun {α} (ok : α → Bool) (l : List α) (es : List (TLEvent α)) : List α :=
  es.foldl (fun l e => (e.step ok l).2) l

/-! ## UniqList -/

/-- Mutating calls on a UniqList. -/
inductive ULEvent (α : Type) where
  | append (x : α)
  | extend (it : Iter α)
  | iadd (it : Iter α)

/-- A call on a UniqList: `append` compares with the items present; the other two filter the whole
iterable against the list as it was before the call.
Simplification: comparing items does not raise, and every item equals itself.
Models: ndg/xacml/utils/__init__.py:17-47. -/
def ULEvent.step {α} [BEq α] (l : List α) : ULEvent α → List α
  | .append x => if l.any (· == x) then l else l ++ [x]
  | .extend it | .iadd it => l ++ it.items.filter fun x => !l.any (· == x)

/-- A history of calls. -/
def ulRun {α} [BEq α] (l : List α) (es : List (ULEvent α)) : List α :=
  es.foldl (fun l e => e.step l) l

/-! ## VettedDict -/

/-- The two filters of a VettedDict: they may accept, refuse, or raise.
Models: ndg/xacml/utils/__init__.py:168-189. -/
structure Filters (κ α : Type) where
  key : κ → Except Exc Bool
  value : α → Except Exc Bool

/-- `_verifyKeyValPair`: the key is looked at first. Models: ndg/xacml/utils/__init__.py:191-209. -/
def Filters.verify {κ α} (f : Filters κ α) (k : κ) (v : α) : Except Exc Bool :=
  match f.key k with
  | .error e => .error e
  | .ok false => .ok false
  | .ok true =>
    match f.value v with
    | .error e => .error e
    | .ok b => .ok b

/-- `d[k] = v`: a pair that is refused is silently not stored.
Models: ndg/xacml/utils/__init__.py:211-220. -/
def vdSet {κ α} [BEq κ] (f : Filters κ α) (m : List (κ × α)) (k : κ) (v : α) : Except Exc Unit × List (κ × α) :=
  match f.verify k v with
  | .error e => (.error e, m)
  | .ok false => (.ok (), m)
  | .ok true => (.ok (), dictSet m k v)

/-- `d.update(pairs)`, inherited from MutableMapping: one assignment after the other.
Models: ndg/xacml/utils/__init__.py:163 (base class). -/
def vdUpdate {κ α} [BEq κ] (f : Filters κ α) : List (κ × α) → List (κ × α) → Except Exc Unit × List (κ × α)
  | m, [] => (.ok (), m)
  | m, (k, v) :: ps =>
    match vdSet f m k v with
    | (.error e, m') => (.error e, m')
    | (.ok (), m') => vdUpdate f m' ps

/-- Mutating calls on a VettedDict. -/
inductive VDEvent (κ α : Type) where
  | set (k : κ) (v : α)
  | del (k : κ)
  | update (ps : List (κ × α))
  | setdefault (k : κ) (v : α)
  | clear

/-- A call on a VettedDict; `setdefault` and `clear` are inherited from MutableMapping.
Models: ndg/xacml/utils/__init__.py:211-220, 263-264 and the base class. -/
def VDEvent.step {κ α} [BEq κ] (f : Filters κ α) (m : List (κ × α)) : VDEvent κ α → Except Exc Unit × List (κ × α)
  | .set k v => vdSet f m k v
  | .del k =>
    match dictGet m k with
    | some _ => (.ok (), dictErase m k)
    | none => (.error .keyError, m)
  | .update ps => vdUpdate f m ps
  | .setdefault k v =>
    match dictGet m k with
    | some _ => (.ok (), m)
    | none => vdSet f m k v
  | .clear => (.ok (), [])

/-- A history of calls, exceptions caught by the caller. -/
def vdRun {κ α} [BEq κ] (f : Filters κ α) (m : List (κ × α)) (es : List (VDEvent κ α)) : List (κ × α) :=
  es.foldl (fun m e => (e.step f m).2) m

/-- `d.get(k, *arg)`; `none` is Python's None. The default is looked for in the wrong place.
Models: ndg/xacml/utils/__init__.py:234-250. -/
def vdGet {κ α} [BEq κ] (m : List (κ × α)) (k : κ) (args : List α) : Option α :=
  match dictGet m k with
  | some v => some v
  | none => if args.length > 1 then args[1]? else none

/-- `d[k]`. Models: ndg/xacml/utils/__init__.py:222-232. -/
def vdItem {κ α} [BEq κ] (m : List (κ × α)) (k : κ) : Except Exc α :=
  match dictGet m k with
  | some v => .ok v
  | none => .error .keyError

/-! ## RestrictedKeyNamesDict -/

/-- Mutating calls on a RestrictedKeyNamesDict; `setdefault`, deletion and `clear` are inherited from
`dict`. The argument of `update` is a mapping (and keywords), given by its items. -/
inductive RDEvent (κ α : Type) where
  | set (k : κ) (v : α)
  | update (ps : List (κ × α))
  | setdefault (k : κ) (v : α)
  | del (k : κ)
  | clear

/-- A call on a RestrictedKeyNamesDict built with the keys `names`. The message of the KeyError in
`update` has two conversions for one argument, so that a TypeError is raised instead.
Models: ndg/xacml/utils/__init__.py:121-157. -/
def RDEvent.step {κ α} [BEq κ] (names : List κ) (m : List (κ × α)) : RDEvent κ α → Except Exc Unit × List (κ × α)
  | .set k v => if names.contains k then (.ok (), dictSet m k v) else (.error .keyError, m)
  | .update ps =>
    if ps.all fun p => names.contains p.1 then (.ok (), ps.foldl (fun m p => dictSet m p.1 p.2) m)
    else (.error .typeError, m)
  | .setdefault k v =>
    match dictGet m k with
    | some _ => (.ok (), m)
    | none => (.ok (), dictSet m k v)
  | .del k =>
    match dictGet m k with
    | some _ => (.ok (), dictErase m k)
    | none => (.error .keyError, m)
  | .clear => (.ok (), [])

/-- A dict built from `init`, then a history of calls, exceptions caught by the caller. -/
def rdRun {κ α} [BEq κ] (init : List (κ × α)) (es : List (RDEvent κ α)) : List (κ × α) :=
  es.foldl (fun m e => (e.step (init.map Prod.fst) m).2) init

/-! ## Registry of attribute value classes -/

/-- A key offered for the class map: a string or another object. -/
inductive RegKey where
  | str (s : String)
  | other
  deriving DecidableEq

/-- A value offered for the class map: a class derived from AttributeValue, another class, or an
object that is not a class. -/
inductive RegValue where
  | cls (c : AVClass)
  | otherClass
  | notAClass
  deriving DecidableEq

/-- The filters of AttributeValueClassMap (`issubclass` raises TypeError for an object that is not a
class). Models: ndg/xacml/core/attributevalue.py:230-257. -/
def classFilters : Filters RegKey RegValue where
  key := fun k => match k with
    | .str _ => .ok true
    | .other => .error .typeError
  value := fun v => match v with
    | .cls _ => .ok true
    | .otherClass => .error .typeError
    | .notAClass => .error .typeError

/-- `addClass(identifier, attributeValueClass, overwrite)` on the class map.
Models: ndg/xacml/core/attributevalue.py:317-339. -/
def addClass (m : List (RegKey × RegValue)) (identifier : RegKey) (c : RegValue) (overwrite : Bool) :
    Except Exc Unit × List (RegKey × RegValue) :=
  match vdSet classFilters [] identifier c with
  | (.error e, _) => (.error e, m)
  | (.ok (), tmp) =>
    if overwrite then vdUpdate classFilters m tmp
    else vdUpdate classFilters m (tmp.filter fun p => (dictGet m p.1).isNone)

/-- A registration call. -/
structure RegEvent where
  identifier : RegKey
  cls : RegValue
  overwrite : Bool

/-- A history of registrations, exceptions caught by the caller. -/
def regRun (m : List (RegKey × RegValue)) (es : List RegEvent) : List (RegKey × RegValue) :=
  es.foldl (fun m e => (addClass m e.identifier e.cls e.overwrite).2) m

/-- The class map at import time. Models: ndg/xacml/core/attributevalue.py:274-289. -/
def stdRegistry : List (RegKey × RegValue) := stdClassMap.map fun p => (.str p.1, .cls p.2)

/-- `AttributeValueClassFactory()(identifier)` on a class map.
Models: ndg/xacml/core/attributevalue.py:307-315. -/
def regLookup (m : List (RegKey × RegValue)) (identifier : String) : Option RegValue :=
  vdGet m (.str identifier) []

/-! ## Assignments to an attribute value -/

/-- A history of assignments to `value`, exceptions caught by the caller; `none` is a Python object
that is none of the modelled native values.
Models: ndg/xacml/core/attributevalue.py:170-183. -/
def AttrVal.setValues (v : AttrVal) (xs : List (Option Native)) : AttrVal :=
  xs.foldl (fun v x => match v.setValue x with
    | .ok v' => v'
    | .error _ => v) v

end Xacml
