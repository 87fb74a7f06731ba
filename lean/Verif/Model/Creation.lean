import Verif.Model.Comparison

/-!
# Results, statuses and error responses created by the package's own constructors
-/
namespace Xacml

variable {V : Type}

/-- An argument: a string, an obligation, None, or anything else. -/
inductive CreateArg (V : Type) where
  | str (s : String)
  | obligation (o : V)
  | none_
  | other (v : V)
  deriving DecidableEq

/-- `StatusCode.CODES`. Models: ndg/xacml/core/context/result.py:51-58. -/
def statusCodes : List String :=
  ["urn:oasis:names:tc:xacml:1.0:status:ok", "urn:oasis:names:tc:xacml:1.0:status:missing-attribute",
   "urn:oasis:names:tc:xacml:1.0:status:processing-error", "urn:oasis:names:tc:xacml:1.0:status:syntax-error"]

/-- A status with its code. -/
structure NewStatus (V : Type) where
  code : String
  message : String
  detail : CreateArg V

/-- A result, its decision being an object of its own. `none`: None. -/
structure NewResult (V : Type) where
  decision : Term
  status : NewStatus V
  resourceId : Option String
  obligations : Option V

/-- `Status.createInitialised(code, message, detail)`. Models: ndg/xacml/core/context/result.py:146-166, with
the setters 98-110 and 202-213. -/
def createStatus (code message detail : CreateArg V) : Except Exc (NewStatus V) :=
  match code with
  | .str c =>
    if c ∈ statusCodes then
      match message with
      | .str m => .ok ⟨c, m, detail⟩
      | _ => .error .typeError
    else .error .attributeError
  | _ => .error .typeError

/-- The arguments of `Result.createInitialised`. -/
structure ResultArgs (V : Type) where
  decision : Operand
  resourceId : CreateArg V
  obligations : CreateArg V
  code : CreateArg V
  message : CreateArg V
  detail : CreateArg V

/-- The default arguments. Models: ndg/xacml/core/context/result.py:147, 522-525. -/
def ResultArgs.defaults : ResultArgs V where
  decision := .term ⟨.decision, "NotApplicable"⟩
  resourceId := .str ""
  obligations := .none_
  code := .str "urn:oasis:names:tc:xacml:1.0:status:ok"
  message := .str ""
  detail := .str ""

/-- `Result.createInitialised(decision, resourceId, obligations, code, message, detail)`: `resourceId` is
not used. Models: ndg/xacml/core/context/result.py:521-553, with the setters 342-361, 631-644. -/
def createResult (a : ResultArgs V) : Except Exc (NewResult V) := do
  let d ← Vocab.create .decision (.str "Indeterminate")
  let d ← match d.assign a.decision with
    | (.error e, _) => .error e
    | (.ok _, d) => .ok d
  let s ← createStatus a.code a.message a.detail
  let r : NewResult V := ⟨d, s, none, none⟩
  match a.obligations with
  | .none_ => .ok r
  | .obligation o => .ok { r with obligations := some o }
  | _ => .error .typeError

/-- The response of `XacmlContextError(*args)`, a single result; `indeterminate` is the shared object
`Decision.INDETERMINATE`. Models: ndg/xacml/core/context/exceptions.py:23-37. -/
def contextErrorResult (indeterminate : Term) (args : List (CreateArg V)) : Except Exc (NewResult V) := do
  let r ← createResult .defaults
  let r := { r with decision := indeterminate }
  match args with
  | [] => .ok r
  | .str m :: _ => .ok { r with status := { r.status with message := m } }
  | _ :: _ => .error .typeError

end Xacml
