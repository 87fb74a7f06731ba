import Verif.Spec.Semantics
import Verif.Spec.Relevance

/-!
# Specification: requests with more attributes, and policies that only look for attributes
-/
namespace Xacml.Spec
open Xacml

/-- Every attribute is still there, perhaps with more values. -/
def AttributesGrown (as as' : List Attribute) : Prop :=
  ∀ a ∈ as, ∃ a' ∈ as', a.attributeId = a'.attributeId ∧ a.dataType = a'.dataType ∧ a.issuer = a'.issuer ∧
    ∀ v ∈ a.values, v ∈ a'.values

/-- A part of the request that was there is still there, perhaps with more attributes. -/
def PartGrown : Option (List Attribute) → Option (List Attribute) → Prop
  | none, _ => True
  | some as, some as' => AttributesGrown as as'
  | some _, none => False

/-- The second request says all that the first one says, and perhaps more: it may have more subjects, resources, attributes
and attribute values, anywhere and in any order. -/
structure RequestGrown (d d' : ReqData) : Prop where
  subjects : ∀ s ∈ d.subjects, ∃ s' ∈ d'.subjects, AttributesGrown s.attributes s'.attributes
  resources : ∀ s ∈ d.resources, ∃ s' ∈ d'.resources, AttributesGrown s.attributes s'.attributes
  action : PartGrown d.action d'.action
  environment : PartGrown d.environment d'.environment

/-- The values a place in a policy reads from a request, if it can be read. -/
def ReadsValues (env : Env) (r : Request) : Reading → List AttrVal → Prop
  | .designator cat d, vs => DesignatorMeans env r cat d vs
  | .selector s, vs => SelectorMeans env r s vs

/-- The data type a place in a policy asks for. -/
def typeRead : Reading → Option String
  | .designator _ d => d.dataType
  | .selector s => s.dataType

/-- A value of the class registered for the data type which has been set to something that suits the class. -/
def ProperValue (env : Env) (dataType : Option String) (v : AttrVal) : Prop :=
  ∃ dt c n, dataType = some dt ∧ env.classMap.lookup dt = some c ∧ v.isInst c = true ∧ v.value = some n ∧
    n.isInstance c.native = true

/-- A place in a policy can be read in `r'`, finds proper values there, and among them all that it finds in `r`. -/
def SeesMore (env : Env) (r r' : Request) (l : Reading) : Prop :=
  ∃ vs', ReadsValues env r' l vs' ∧ (∀ v ∈ vs', ProperValue env (typeRead l) v) ∧
    ∀ vs, ReadsValues env r l vs → ∀ v ∈ vs, v ∈ vs'

/-- What a match element reads. -/
def ReadBy (m : Match) (l : Reading) : Prop :=
  (∃ cat d, m.designator = some (cat, d) ∧ l = .designator cat d) ∨
  (m.designator = none ∧ ∃ s, m.selector = some s ∧ l = .selector s)

/-- The function of a match element is true or false for every proper value. -/
def DefiniteMatch (env : Env) (m : Match) : Prop :=
  ∃ l f, ReadBy m l ∧ m.func = some f ∧
    ∀ v, ProperValue env (typeRead l) v → ∃ b, FuncMeans env.re f [optAv m.value, .av v] (.native (.bool b))

/-- All match elements of a target are of that kind. -/
def DefiniteTarget (env : Env) (t : Option Target) : Prop := ∀ u, t = some u → ∀ m ∈ allMatches u, DefiniteMatch env m

/-- A bag of type `t`: read from the request or written down in the policy. -/
inductive BagExpr (env : Env) (t : AVClass) : Expr → Prop
  | designator {cat d c} : classLookup env.classMap d.dataType = some c → c.uid = t.uid → BagExpr env t (.designator cat d)
  | selector {s c} : classLookup env.classMap s.dataType = some c → c.uid = t.uid → BagExpr env t (.selector s)
  | written {vs : List AttrVal} : (∀ v ∈ vs, v.isInst t = true) → BagExpr env t (.apply (some (.bag t)) (vs.map .value))

/-- A condition that only looks for values: do bags have values in common, for all of some bags? -/
inductive Searching (env : Env) : Expr → Prop
  | common {t a b} : BagExpr env t a → BagExpr env t b → Searching env (.apply (some (.atLeastOneMemberOf t)) [a, b])
  | and {args} : (∀ e ∈ args, Searching env e) → Searching env (.apply (some .and) args)

/-- A rule with this effect that only looks for values. -/
def SearchingRule (env : Env) (e : Effect) (rule : Rule) : Prop :=
  rule.effect = some e ∧ DefiniteTarget env rule.target ∧
    ∀ c, rule.condition = some c → ∃ x, c.expression = some x ∧ Searching env x

/-- A policy or policy set with rules of one effect only, which only look for values. Deny-overrides policy sets turn failures
into Deny and are excluded if the effect is Deny. -/
inductive SearchingPolicy (env : Env) (e : Effect) : PolicyNode → Prop
  | policy {hdr rules} : DefiniteTarget env hdr.target → (∀ rule ∈ rules, SearchingRule env e rule) →
      SearchingPolicy env e (.policy hdr rules)
  | policySet {hdr ps} : DefiniteTarget env hdr.target → (e = .deny → hdr.alg ≠ some .denyOverrides) →
      (∀ p ∈ ps, SearchingPolicy env e p) → SearchingPolicy env e (.policySet hdr ps)

end Xacml.Spec
