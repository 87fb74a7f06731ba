import Verif.Spec.Renaming
import Verif.Spec.Reordering
import Verif.Spec.Equality
import Verif.Spec.History

/-!
# Specification: other values for the same things
-/
namespace Xacml.Spec
open Xacml

/-- New values for old ones: for instance pseudonyms for user names. -/
structure Recoding where
  of : Native → Native

/-- Equal values stay equal, different ones different, and a value keeps its native type. -/
def Recoding.Faithful (c : Recoding) : Prop :=
  (∀ a b, SameValue (some (c.of a)) (some (c.of b)) ↔ SameValue (some a) (some b)) ∧
  ∀ a t, (c.of a).isInstance t = a.isInstance t

/-- The new value in an attribute value; its class and data type stay. -/
def Recoding.inValue (c : Recoding) (v : AttrVal) : AttrVal := { v with value := v.value.map c.of }

/-- The new values in an argument or result of a function. The truth values and numbers that functions
compute are not attribute values and stay. -/
def Recoding.inPyVal (c : Recoding) : PyVal → PyVal
  | .av v => .av (c.inValue v)
  | .bag b => .bag { b with items := b.items.map c.inValue }
  | x => x

/-- The new values in an attribute of a request. -/
def Recoding.inAttribute (c : Recoding) (a : Attribute) : Attribute := { a with values := a.values.map c.inValue }

/-- The new values in a request. -/
def Recoding.inData (c : Recoding) (d : ReqData) : ReqData where
  subjects := d.subjects.map fun s => { s with attributes := s.attributes.map c.inAttribute }
  resources := d.resources.map fun x => { x with attributes := x.attributes.map c.inAttribute }
  action := d.action.map (·.map c.inAttribute)
  environment := d.environment.map (·.map c.inAttribute)

/-- The new values in what the context handler is asked. -/
def Recoding.inQuery (c : Recoding) (q : PipQuery) : PipQuery := { q with ctx := c.inData q.ctx }

/-- The new values in what the context handler answers. -/
def Recoding.inAnswer (c : Recoding) : PipAnswer → PipAnswer
  | .none => .none
  | .iter it => .iter { it with items := it.items.map c.inPyVal }

/-- What a function returns, if it does, with `f` applied. -/
def Returning {α β} (f : α → β) : Except Exc α → Except Exc β
  | .ok a => .ok (f a)
  | .error e => .error e

/-- The request `r'` is `r` with the new values: in its attributes, in what its context handler answers (after
the same questions, in new values) and in what XPath finds. -/
structure Recoding.Recodes (c : Recoding) (r r' : Request) : Prop where
  data : r'.data = c.inData r.data
  handler : match r.ctxHandler, r'.ctxHandler with
    | none, none => True
    | some pip, some pip' => ∀ log q, pip' (log.map c.inQuery) (c.inQuery q) = Returning c.inAnswer (pip log q)
    | _, _ => False
  selector : match r.attributeSelector, r'.attributeSelector with
    | none, none => True
    | some x, some x' => ∀ path, x' path = Returning (fun texts => texts.map (·.map c.of)) (x path)
    | _, _ => False

mutual
/-- The new values in an expression. -/
def Recoding.inExpr (c : Recoding) : Expr → Expr
  | .value v => .value (c.inValue v)
  | .designator cat d => .designator cat d
  | .selector s => .selector s
  | .apply f args => .apply f (c.inExprs args)
/-- The new values in expressions. -/
def Recoding.inExprs (c : Recoding) : List Expr → List Expr
  | [] => []
  | e :: es => c.inExpr e :: c.inExprs es
end

/-- The new values in a match element. -/
def Recoding.inMatch (c : Recoding) (m : Match) : Match := { m with value := m.value.map c.inValue }

/-- The new values in a section of a target. -/
def Recoding.inSection (c : Recoding) (cs : List TargetChild) : List TargetChild :=
  cs.map fun t => { t with matches_ := t.matches_.map c.inMatch }

/-- The new values in a target. -/
def Recoding.inTarget (c : Recoding) (t : Target) : Target where
  subjects := c.inSection t.subjects
  resources := c.inSection t.resources
  actions := c.inSection t.actions
  environments := c.inSection t.environments

/-- The new values in a rule. -/
def Recoding.inRule (c : Recoding) (rule : Rule) : Rule :=
  { rule with
    target := rule.target.map c.inTarget
    condition := rule.condition.map fun k => { k with expression := k.expression.map c.inExpr } }

/-- The new values in the target of a policy. -/
def Recoding.inHeader (c : Recoding) (h : Header) : Header := { h with target := h.target.map c.inTarget }

mutual
/-- The new values in a policy or policy set. -/
def Recoding.inPolicy (c : Recoding) : PolicyNode → PolicyNode
  | .policy h rules => .policy (c.inHeader h) (rules.map c.inRule)
  | .policySet h ps => .policySet (c.inHeader h) (c.inPolicies ps)
/-- The new values in policies. -/
def Recoding.inPolicies (c : Recoding) : List PolicyNode → List PolicyNode
  | [] => []
  | p :: ps => c.inPolicy p :: c.inPolicies ps
end

/-- A function that does nothing with values but compare them, pass them on and count them: every standard
function except regexp-match and concatenate, and custom functions that give for new values the new value
of what they give for the old ones. -/
def Recoding.Ignores (c : Recoding) : Func → Prop
  | .regexpMatch _ => False
  | .concatenate _ => False
  | .custom f => ∀ args, f (args.map c.inPyVal) = Returning c.inPyVal (f args)
  | _ => True

/-- A function is used in a policy: in a condition or in a match element, at any depth. -/
def UsedIn (f : Func) (p : PolicyNode) : Prop := AppliedIn f p ∨ ∃ m ∈ policyMatches p, m.func = some f

/-- A value is written down in an expression, at any depth. -/
inductive Written (v : AttrVal) : Expr → Prop
  | here : Written v (.value v)
  | inside {g args e} : e ∈ args → Written v e → Written v (.apply g args)

/-- A value is written down in a condition of a policy or policy set, at any depth. -/
inductive WrittenIn (v : AttrVal) : PolicyNode → Prop
  | rule {hdr rules rule k e} : rule ∈ rules → rule.condition = some k → k.expression = some e → Written v e →
      WrittenIn v (.policy hdr rules)
  | child {hdr ps p} : p ∈ ps → WrittenIn v p → WrittenIn v (.policySet hdr ps)

/-- A policy mentions a value: in a condition or in a match element, at any depth. -/
def Mentions (p : PolicyNode) (v : AttrVal) : Prop := WrittenIn v p ∨ ∃ m ∈ policyMatches p, m.value = some v

/-- The text `a` for `b` and `b` for `a`. -/
def exchange (a b : String) : Recoding where
  of
    | .str s => .str (if s = a then b else if s = b then a else s)
    | x => x

end Xacml.Spec
