/-!
# Python fragment used by the model

Exceptions as values, native Python values with `==`, `isinstance` and truthiness.
-/
namespace Xacml

/-- Kinds of Python exceptions raised by the modelled code (messages are dropped).
`other n` stands for any exception raised by code outside the package
(PIP, custom functions, XPath engine, URL fetching).
Models: ndg/xacml/core/context/exceptions.py:16-64, ndg/xacml/core/functions/__init__.py:289-324,
ndg/xacml/parsers/__init__.py (XMLParseError) and Python built-in exceptions.
Simplification: only `Exception` subclasses (not KeyboardInterrupt/SystemExit), and no MemoryError;
`recursionError` is raised only when policy references are followed too deep (Model/Finder.lean). -/
inductive Exc where
  | typeError | attributeError | valueError | overflowError | keyError | indexError
  | nameError | importError | notImplementedError | reError
  | xacmlContextError | xacmlContextTypeError | missingAttributeError
  | unsupportedFunctionError | unsupportedStdFunctionError
  | functionMapConfigError | overwritingStdFunctionError
  | xmlParseError | recursionError
  | other (n : Nat)
  deriving DecidableEq, Repr

/-- Python `float`: IEEE doubles seen as NaN, infinities and finite rationals
(`-0.0 == 0.0` in Python, so the sign of zero is dropped). Arithmetic is not modelled. -/
inductive PyFloat where
  | nan
  | inf (neg : Bool)
  | fin (q : Rat)
  deriving DecidableEq

/-- Python `datetime.datetime`: local microseconds since an epoch and the UTC offset
(in microseconds) for aware values, `none` for naive values. -/
structure PyDateTime where
  local_ : Int
  offset : Option Int
  deriving DecidableEq

/-- Native values that the 16 attribute value classes can hold.
Models: ndg/xacml/core/attributevalue.py:106-123 (NATIVE_TYPES). -/
inductive Native where
  | str (s : String)
  | int (i : Int)
  | bool (b : Bool)
  | float (f : PyFloat)
  | datetime (d : PyDateTime)
  | timedelta (us : Int)
  deriving DecidableEq

/-- The native Python types, plus the `NotImplemented` marker used for base64Binary.
Models: ndg/xacml/core/attributevalue.py:106-123. -/
inductive NativeType where
  | str | int | bool | float | datetime | timedelta | notImplemented
  deriving DecidableEq, Repr

/-- `isinstance(value, TYPE)` for native values; `bool` is a subclass of `int`.
`isinstance(x, NotImplemented)` raises TypeError in Python; the only use
(attributevalue.py:178) turns a `False` into TypeError as well, so `false` is exact there. -/
def Native.isInstance : Native → NativeType → Bool
  | .str _, .str => true
  | .int _, .int => true
  | .bool _, .int => true
  | .bool _, .bool => true
  | .float _, .float => true
  | .datetime _, .datetime => true
  | .timedelta _, .timedelta => true
  | _, _ => false

/-- Numeric value of the Python numeric types that compare with each other. -/
def Native.num? : Native → Option Rat
  | .int i => some (i : Rat)
  | .bool b => some (if b then 1 else 0)
  | .float (.fin q) => some q
  | _ => none

/-- Python `==` on datetimes: naive values compare by local time, aware values by UTC,
mixed comparison is False. -/
def PyDateTime.eq (a b : PyDateTime) : Bool :=
  match a.offset, b.offset with
  | none, none => a.local_ == b.local_
  | some oa, some ob => a.local_ - oa == b.local_ - ob
  | _, _ => false

/-- Python `==` on native values (numeric types compare across int/bool/float; NaN is
unequal to everything). Simplification: container membership in Python also tests object
identity first, which differs from `==` only for NaN; the model uses `==` throughout. -/
def Native.eq : Native → Native → Bool
  | .str a, .str b => a == b
  | .datetime a, .datetime b => a.eq b
  | .timedelta a, .timedelta b => a == b
  | .float (.inf a), .float (.inf b) => a == b
  | a, b =>
    match a.num?, b.num? with
    | some x, some y => x == y
    | _, _ => false

/-- Python `==` where the value may be `None` (an attribute value whose value was never set). -/
def optNativeEq : Option Native → Option Native → Bool
  | none, none => true
  | some a, some b => a.eq b
  | _, _ => false

/-- Python truthiness of native values. -/
def Native.truthy : Native → Bool
  | .str s => !(s == "")
  | .int i => !(i == 0)
  | .bool b => b
  | .float .nan => true
  | .float (.inf _) => true
  | .float (.fin q) => !(q == 0)
  | .datetime _ => true
  | .timedelta us => !(us == 0)

end Xacml
