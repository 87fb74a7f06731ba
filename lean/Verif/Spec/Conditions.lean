import Verif.Spec.Semantics
import Verif.Spec.Restricting

/-!
# Specification: writing the same condition differently
-/
namespace Xacml.Spec
open Xacml

/-- The function gives True or False, if anything. -/
def BooleanFunc : Func → Prop
  | .equal _ | .matchFn _ | .atLeastOneMemberOf _ | .and | .not | .regexpMatch _ => True
  | _ => False

/-- The expression is the application of such a function. -/
def BooleanExpr : Expr → Prop
  | .apply (some f) _ => BooleanFunc f
  | _ => False

/-- The expressions differ by steps of boolean algebra, inside the arguments of any functions. -/
inductive SameExpr : Expr → Expr → Prop
  | refl {e} : SameExpr e e
  | symm {e e'} : SameExpr e e' → SameExpr e' e
  | trans {e e' e''} : SameExpr e e' → SameExpr e' e'' → SameExpr e e''
  | inside {f pre e e' post} : SameExpr e e' →
      SameExpr (.apply f (pre ++ e :: post)) (.apply f (pre ++ e' :: post))
  /-- The order of the arguments of `and` does not matter. -/
  | reorder {args args'} : args.Perm args' → SameExpr (.apply (some .and) args) (.apply (some .and) args')
  /-- Nor does saying something twice. -/
  | repeated {e args} : SameExpr (.apply (some .and) (e :: e :: args)) (.apply (some .and) (e :: args))
  /-- Nested `and`s are one. -/
  | flatten {args rest} :
      SameExpr (.apply (some .and) (.apply (some .and) args :: rest)) (.apply (some .and) (args ++ rest))
  /-- `and` of one argument is the argument. -/
  | single {e} : BooleanExpr e → SameExpr (.apply (some .and) [e]) e
  /-- Double negation. -/
  | doubleNot {e} : BooleanExpr e → SameExpr (.apply (some .not) [.apply (some .not) [e]]) e
  /-- Equality is symmetric. -/
  | equalSwap {t a b} : SameExpr (.apply (some (.equal t)) [a, b]) (.apply (some (.equal t)) [b, a])
  /-- Having a common member is symmetric. -/
  | memberSwap {t a b} :
      SameExpr (.apply (some (.atLeastOneMemberOf t)) [a, b]) (.apply (some (.atLeastOneMemberOf t)) [b, a])

/-- The conditions are written with expressions that differ so. -/
def SameCondition (rule rule' : Rule) : Prop :=
  ∃ c e c' e', rule.condition = some c ∧ c.expression = some e ∧ c'.expression = some e' ∧ SameExpr e e' ∧
    rule' = { rule with condition := some c' }

/-- The second policy is the first one with conditions anywhere in the tree written differently. -/
abbrev Rewritten : PolicyNode → PolicyNode → Prop := Rulewise fun rule rule' => rule' = rule ∨ SameCondition rule rule'

/-- The match element compares with `<type>-equal`, and the expression says the same: the values of the
designator or selector and the bag of the value have a common member. The value has the type of the function,
which is the one registered for the data type of the designator or selector. -/
def SaysAsExpr (env : Env) (m : Match) (e : Expr) : Prop :=
  ∃ t v x dt, m.func = some (.equal t) ∧ m.value = some v ∧ v.isInst t = true ∧ classLookup env.classMap dt = some t ∧
    ((∃ cat d, m.designator = some (cat, d) ∧ dt = d.dataType ∧ x = .designator cat d) ∨
      (m.designator = none ∧ ∃ s, m.selector = some s ∧ dt = s.dataType ∧ x = .selector s)) ∧
    e = .apply (some (.atLeastOneMemberOf t)) [.apply (some (.bag t)) [.value v], x]

/-- The first rule has a target without alternatives and no condition, the second has the condition that says the
same and no target. -/
def AsCondition (env : Env) (rule rule' : Rule) : Prop :=
  ∃ t es, rule.target = some t ∧ rule.condition = none ∧
    t.subjects.length ≤ 1 ∧ t.resources.length ≤ 1 ∧ t.actions.length ≤ 1 ∧ t.environments.length ≤ 1 ∧
    Each (SaysAsExpr env) (allMatches t) es ∧
    rule' = { rule with target := none, condition := some { expression := some (.apply (some .and) es) } }

end Xacml.Spec
