import Verif.Model.Py

/-!
# Decisions and effects as Python objects: creation, assignment, comparison
-/
namespace Xacml

/-- The classes `ndg.xacml.core.context.result.Decision`, `ndg.xacml.core.rule.Effect` and
`ndg.xacml.core.obligation.Effect`. -/
inductive Vocab where
  | decision
  | ruleEffect
  | obligationEffect
  deriving DecidableEq

/-- `TYPES`. Models: ndg/xacml/core/context/result.py:292, ndg/xacml/core/rule.py:39,
ndg/xacml/core/obligation.py:43. -/
def Vocab.types : Vocab → List String
  | .decision => ["Permit", "Deny", "Indeterminate", "NotApplicable"]
  | .ruleEffect => ["Deny", "Permit"]
  | .obligationEffect => ["Permit", "Deny"]

/-- An instance of one of these classes, or of a subclass (the subclasses change neither `TYPES` nor
comparison). -/
structure Term where
  cls : Vocab
  value : String
  deriving DecidableEq

/-- A Python object: such an instance, a string, or anything else (which does not itself define a
comparison with the first two). -/
inductive Operand where
  | term (t : Term)
  | str (s : String)
  | other
  deriving DecidableEq

/-- The part the setter, and `__eq__`, have in common: an instance of the class stands for its value.
`none`: neither an instance of the class nor a string. Models: ndg/xacml/core/context/result.py:343-351,
394-402, ndg/xacml/core/rule.py:76-84, ndg/xacml/core/obligation.py:81-89. -/
def Vocab.text (c : Vocab) : Operand → Option String
  | .term t => if t.cls = c then some t.value else none
  | .str s => some s
  | .other => none

/-- `_setValue`: what becomes the value. Models: ndg/xacml/core/context/result.py:342-361,
ndg/xacml/core/rule.py:75-95, ndg/xacml/core/obligation.py:80-100. -/
def Vocab.accept (c : Vocab) (x : Operand) : Except Exc String :=
  match c.text x with
  | none => .error .typeError
  | some s => if s ∈ c.types then .ok s else .error .attributeError

/-- `Class(x)`. Models: ndg/xacml/core/context/result.py:312-314, ndg/xacml/core/rule.py:42-47,
ndg/xacml/core/obligation.py:47-53. -/
def Vocab.create (c : Vocab) (x : Operand) : Except Exc Term :=
  match c.accept x with
  | .error e => .error e
  | .ok s => .ok ⟨c, s⟩

/-- `t.value = x`. -/
def Term.assign (t : Term) (x : Operand) : Except Exc Unit × Term :=
  match t.cls.accept x with
  | .error e => (.error e, t)
  | .ok s => (.ok (), { t with value := s })

/-- `__eq__`: for an operand of another type the message of the TypeError refers to a variable that is
not bound (UnboundLocalError, a NameError). Models: ndg/xacml/core/context/result.py:389-413,
ndg/xacml/core/rule.py:114-138, ndg/xacml/core/obligation.py:118-138. -/
def Term.eqMethod (t : Term) (x : Operand) : Except Exc Bool :=
  match t.cls.text x with
  | none => .error .nameError
  | some s => if s ∈ t.cls.types then .ok (decide (t.value = s)) else .error .attributeError

/-- Python's `x == y`, at least one operand being an instance: the left operand's method, or the right
operand's if the left one has none for it. -/
def pyCompare (t : Term) (x : Operand) (left : Bool) : Except Exc Bool :=
  match left, x with
  | true, x => t.eqMethod x
  | false, .term u => u.eqMethod (.term t)
  | false, .str s => t.eqMethod (.str s)
  | false, .other => t.eqMethod .other

/-- Python's `!=`, derived from `__eq__`. -/
def pyDiffers (t : Term) (x : Operand) (left : Bool) : Except Exc Bool :=
  match pyCompare t x left with
  | .error e => .error e
  | .ok b => .ok (!b)

/-- `bool(effect)`. Models: ndg/xacml/core/rule.py:140-146. -/
def Term.effectTrue (t : Term) : Bool := decide (t.value = "Permit")

/-- An instance after creation and a history of assignments, exceptions caught. -/
def Vocab.history (c : Vocab) (x : Operand) (xs : List Operand) : Option Term :=
  match c.create x with
  | .error _ => none
  | .ok t => some (xs.foldl (fun t x => (t.assign x).2) t)

end Xacml
