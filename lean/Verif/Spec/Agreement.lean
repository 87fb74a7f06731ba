import Verif.Spec.XPath
import Verif.Spec.Context
import Verif.Spec.Designator
import Verif.Spec.Relevance
import Verif.Model.SelectorService

/-!
# Specification: a selector that asks for what a designator asks for
-/
namespace Xacml.Spec
open Xacml

/-- The namespace of requests. -/
def requestNs : Chars := "urn:oasis:names:tc:xacml:2.0:context:schema:os".toList

/-- A tag in the namespace of requests. -/
def requestTag (name : String) : Chars := '{' :: requestNs ++ '}' :: name.toList

/-- The part of a request a kind of designator looks at. -/
def partName : Category → String
  | .subject => "Subject"
  | .resource => "Resource"
  | .action => "Action"
  | .environment => "Environment"

/-- The path to the values of an attribute, such as
`/{…}Subject/{…}Attribute[@AttributeId='role'][@DataType='…'][@Issuer='…']/{…}AttributeValue`. -/
def attributePath (cat : Category) (i dt : String) (issuer : Option String) : List Step :=
  [.child (.tag (requestTag (partName cat))) [],
   .child (.tag (requestTag "Attribute"))
     ([.attrIs "AttributeId".toList i.toList, .attrIs "DataType".toList dt.toList] ++
       match issuer with
       | none => []
       | some s => [.attrIs "Issuer".toList s.toList]),
   .child (.tag (requestTag "AttributeValue")) []]

/-- A text that can be written in quotes. -/
def Quotable (s : String) : Prop := ¬ ('\'' ∈ s.toList ∧ '"' ∈ s.toList)

/-- The parts of a request, their attributes and the values of these are in the namespace of requests. -/
structure InContext (root : PElem) : Prop where
  parts : ∀ i t as x y cs, elemAt root [i] = some (.mk t as x y cs) → (splitTag t).1 = some requestNs
  attributes : ∀ i j t as x y cs, elemAt root [i, j] = some (.mk t as x y cs) → (splitTag t).2 = "Attribute".toList →
    (splitTag t).1 = some requestNs
  values : ∀ i j k t as x y cs t' as' x' y' cs', elemAt root [i, j] = some (.mk t as x y cs) →
    (splitTag t).2 = "Attribute".toList → elemAt root [i, j, k] = some (.mk t' as' x' y' cs') →
    (splitTag t').1 = some requestNs

/-- Classes are registered under their own identifiers. -/
def OwnNames (classMap : List (String × AVClass)) : Prop := ∀ dt c, classMap.lookup dt = some c → c.identifier = dt

/-! ## Replacing readings in policies -/

/-- A reading as an expression. -/
def Reading.expr : Reading → Expr
  | .designator cat d => .designator cat d
  | .selector s => .selector s

mutual
/-- The expression with other readings. -/
def rewriteExpr (f : Reading → Reading) : Expr → Expr
  | .value v => .value v
  | .designator cat d => (f (.designator cat d)).expr
  | .selector s => (f (.selector s)).expr
  | .apply fn args => .apply fn (rewriteExprs f args)
/-- The same for lists. -/
def rewriteExprs (f : Reading → Reading) : List Expr → List Expr
  | [] => []
  | e :: es => rewriteExpr f e :: rewriteExprs f es
end

/-- The match element with another reading. -/
def readsBy (m : Match) : Reading → Match
  | .designator cat d => { m with designator := some (cat, d), selector := none }
  | .selector s => { m with designator := none, selector := some s }

/-- The match element with other readings. If it has both a designator and a selector, the designator counts. -/
def rewriteMatch (f : Reading → Reading) (m : Match) : Match :=
  match m.designator, m.selector with
  | some (cat, d), _ => readsBy m (f (.designator cat d))
  | none, some s => readsBy m (f (.selector s))
  | none, none => m

/-- The target with other readings. -/
def rewriteTarget (f : Reading → Reading) (t : Target) : Target :=
  let child (c : TargetChild) : TargetChild := ⟨c.matches_.map (rewriteMatch f)⟩
  ⟨t.subjects.map child, t.resources.map child, t.actions.map child, t.environments.map child⟩

/-- The rule with other readings. -/
def rewriteRule (f : Reading → Reading) (r : Rule) : Rule :=
  { r with target := r.target.map (rewriteTarget f)
           condition := r.condition.map fun c => { c with expression := c.expression.map (rewriteExpr f) } }

mutual
/-- The policy with other readings. -/
def rewrite (f : Reading → Reading) : PolicyNode → PolicyNode
  | .policy h rs => .policy { h with target := h.target.map (rewriteTarget f) } (rs.map (rewriteRule f))
  | .policySet h ps => .policySet { h with target := h.target.map (rewriteTarget f) } (rewriteAll f ps)
/-- The same for lists. -/
def rewriteAll (f : Reading → Reading) : List PolicyNode → List PolicyNode
  | [] => []
  | p :: ps => rewrite f p :: rewriteAll f ps
end

/-- Designators spelt out as paths, where `which` says so. -/
def byPath (which : Category → Designator → Bool) : Reading → Reading
  | .designator cat d =>
    match d.attributeId, d.dataType, which cat d with
    | some i, some dt, true => .selector
        { path := some (pathText (attributePath cat i dt d.issuer)), dataType := some dt, mustBePresent := d.mustBePresent }
    | _, _, _ => .designator cat d
  | .selector s => .selector s

/-- A designator can be spelt out as a path for a request document: what it asks for can be written in quotes and is of a
type with a class, there is one action or environment if it asks for it, and no context handler if it asks for the
subject. -/
def Spellable (classMap : List (String × AVClass)) (root : PElem) (pip : Option Pip) (cat : Category) (d : Designator) : Prop :=
  ∃ i dt, d.attributeId = some i ∧ d.dataType = some dt ∧ (classMap.lookup dt).isSome = true ∧ Quotable i ∧ Quotable dt ∧
    (∀ s, d.issuer = some s → Quotable s) ∧
    (cat = .action ∨ cat = .environment → (childrenNamed root.node (partName cat)).length = 1) ∧
    (cat = .subject → pip = none)

/-- All attribute values of a request document have text. -/
def AllWithText (root : PElem) : Prop :=
  ∀ i j k t as y cs, elemAt root [i, j, k] = some (.mk t as none y cs) → (splitTag t).2 ≠ "AttributeValue".toList

end Xacml.Spec
