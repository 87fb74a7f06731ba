import Verif.Model.Policy
import Verif.Spec.Designator

/-!
# Specification: what a policy can look at

The attribute designators and selectors that occur in a policy, and what it means that two requests look the
same through one of them.
-/
namespace Xacml.Spec
open Xacml

/-- A place in a policy that reads the request. -/
inductive Reading where
  | designator (cat : Category) (d : Designator)
  | selector (s : Selector)

/-- An expression contains a reading, at any depth. -/
inductive InExpr (l : Reading) : Expr → Prop
  | designator {cat d} : l = .designator cat d → InExpr l (.designator cat d)
  | selector {s} : l = .selector s → InExpr l (.selector s)
  | apply {f args e} : e ∈ args → InExpr l e → InExpr l (.apply f args)

/-- A match element contains a reading. -/
def InMatch (l : Reading) (m : Match) : Prop :=
  (∃ cat d, m.designator = some (cat, d) ∧ l = .designator cat d) ∨ ∃ s, m.selector = some s ∧ l = .selector s

/-- A target contains a reading. -/
def InTarget (l : Reading) (t : Option Target) : Prop :=
  ∃ t', t = some t' ∧ ∃ c ∈ t'.subjects ++ t'.resources ++ t'.actions ++ t'.environments,
    ∃ m ∈ c.matches_, InMatch l m

/-- A rule contains a reading, in its target or in its condition. -/
def InRule (l : Reading) (rule : Rule) : Prop :=
  InTarget l rule.target ∨ ∃ c e, rule.condition = some c ∧ c.expression = some e ∧ InExpr l e

/-- A policy or policy set contains a reading, at any depth. -/
inductive InPolicy (l : Reading) : PolicyNode → Prop
  | policyTarget {hdr rules} : InTarget l hdr.target → InPolicy l (.policy hdr rules)
  | rule {hdr rules rule} : rule ∈ rules → InRule l rule → InPolicy l (.policy hdr rules)
  | setTarget {hdr ps} : InTarget l hdr.target → InPolicy l (.policySet hdr ps)
  | child {hdr ps p} : p ∈ ps → InPolicy l p → InPolicy l (.policySet hdr ps)

/-- Two requests look the same through a designator (the values it names are the same, in the same order) or
a selector (XPath gives the same). Subject designators ask the context handler, too, and it is given all of the
request: there must be none, or all attributes must be the same. -/
def LooksSame (r r' : Request) : Reading → Prop
  | .designator cat d =>
      ((attributesOf cat r.data).map (designated d) = (attributesOf cat r'.data).map (designated d) ∧
        (cat = .subject → r.ctxHandler = none ∧ r'.ctxHandler = none)) ∨
      (r'.data = r.data ∧ r'.ctxHandler = r.ctxHandler)
  | .selector s => r.attributeSelector.map (· s.path) = r'.attributeSelector.map (· s.path)

/-- A request in which only the attributes in `keep` are left. -/
def restrict (keep : Category → Attribute → Bool) (r : ReqData) : ReqData where
  subjects := r.subjects.map fun s => { s with attributes := s.attributes.filter (keep .subject) }
  resources := r.resources.map fun x => { x with attributes := x.attributes.filter (keep .resource) }
  action := r.action.map (·.filter (keep .action))
  environment := r.environment.map (·.filter (keep .environment))

mutual
/-- Two policies have the same combining algorithms, targets, effects and conditions. All else may differ:
identifiers, versions, descriptions, XPath versions and obligations. -/
def SameLogic : PolicyNode → PolicyNode → Prop
  | .policy h rs, .policy h' rs' => h.alg = h'.alg ∧ h.target = h'.target ∧
      rs.map (fun r => (r.effect, r.target, r.condition)) = rs'.map (fun r => (r.effect, r.target, r.condition))
  | .policySet h ps, .policySet h' ps' => h.alg = h'.alg ∧ h.target = h'.target ∧ SameLogics ps ps'
  | _, _ => False
/-- The same for lists. -/
def SameLogics : List PolicyNode → List PolicyNode → Prop
  | [], [] => True
  | p :: ps, q :: qs => SameLogic p q ∧ SameLogics ps qs
  | _, _ => False
end

end Xacml.Spec
