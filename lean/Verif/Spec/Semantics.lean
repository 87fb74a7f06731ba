import Verif.Spec.Target
import Verif.Spec.Designator
import Verif.Spec.Equality
import Verif.Spec.Reader

/-!
# Specification: what a policy means

A big-step semantics of XACML functions, expressions, match elements, targets, rules, policies and policy
sets for one request. It has no state, no exceptions, no loops and no evaluation order: something that
fails simply means nothing, and a rule or policy that depends on it is Indeterminate.
-/
namespace Xacml.Spec
open Xacml

/-- The integer nearest to `q`, the even one of two equally near ones. -/
def NearestEven (q : Rat) (n : Int) : Prop :=
  (n : Rat) - 1/2 ≤ q ∧ q ≤ n + 1/2 ∧ ((q = (n : Rat) - 1/2 ∨ q = n + 1/2) → n % 2 = 0)

/-- The text of an attribute value. -/
def HasText (v : AttrVal) (s : String) : Prop := v.value = some (.str s)

/-- A function applied to arguments gives a value; `re` is Python's regular expression engine. -/
inductive FuncMeans (re : String → Except Exc (String → Bool)) : Func → List PyVal → PyVal → Prop
  | equal {t a b r} : a.isInst t → b.isInst t → (r = true ↔ SameValue a.value b.value) →
      FuncMeans re (.equal t) [.av a, .av b] (.native (.bool r))
  /-- `a == b` on attribute values is characterised by C39. -/
  | matchFn {t a b r} : a.isInst t → b.isInst t → a.pyEq b = .ok r →
      FuncMeans re (.matchFn t) [.av a, .av b] (.native (.bool r))
  | bag {t} {vs : List AttrVal} : (∀ v ∈ vs, v.isInst t = true) → FuncMeans re (.bag t) (vs.map .av) (.bag ⟨some t, vs⟩)
  | oneAndOnly {t c v} : c.uid = t.uid → FuncMeans re (.oneAndOnly t) [.bag ⟨some c, [v]⟩] (.av v)
  | atLeastOneMemberOf {t c c'} {vs ws : List AttrVal} {r} : c.uid = t.uid → c'.uid = t.uid →
      (r = true ↔ ∃ v ∈ vs, ∃ w ∈ ws, SameValue v.value w.value) →
      FuncMeans re (.atLeastOneMemberOf t) [.bag ⟨some c, vs⟩, .bag ⟨some c', ws⟩] (.native (.bool r))
  | and {bs : List Bool} {r} : (r = true ↔ ∀ b ∈ bs, b = true) → FuncMeans re .and (bs.map (.native ∘ .bool)) (.native (.bool r))
  | not {b r} : (r = true ↔ b = false) → FuncMeans re .not [.native (.bool b)] (.native (.bool r))
  | roundInt {i} : FuncMeans re .round [.native (.int i)] (.native (.int i))
  | roundBool {b} : FuncMeans re .round [.native (.bool b)] (.native (.int (if b then 1 else 0)))
  | roundFloat {q n} : NearestEven q n → FuncMeans re .round [.native (.float (.fin q))] (.native (.int n))
  | regexpMatch {t p i pat s m} : p.isInst t → i.isInst t → HasText p pat → HasText i s → re pat = .ok m →
      FuncMeans re (.regexpMatch t) [.av p, .av i] (.native (.bool (m s)))
  | concatenate {t v} {rest : List AttrVal} {s texts} : v.isInst t → rest ≠ [] → (∀ u ∈ rest, u.isInst stringClass = true) →
      HasText v s → Each HasText rest texts → t.native = .str →
      FuncMeans re (.concatenate t) (.av v :: rest.map .av)
        (.av { cls := t, dataType := t.identifier, value := some (.str (String.join (s :: texts))) })
  | custom {f args x} : f args = .ok x → FuncMeans re (.custom f) args x

/-- Looking for `x` among known values can be done: every known value before the first equal one can be
compared with `x`. -/
def Searchable (known : List AttrVal) (x : AttrVal) : Prop :=
  ∀ pre y post, known = pre ++ y :: post → KnownIn pre x ∨ ∃ b, y.pyEq x = .ok b

/-- What a PIP answer adds to the values already known. Values delivered by a one-shot iterator are lost
when none is known (see C57). -/
inductive PipGives (env : Env) (dataType : Option String) (known : List AttrVal) :
    PipAnswer → List AttrVal → Prop
  | nothing : PipGives env dataType known .none []
  | first {it} {vs : List AttrVal} : known = [] → it.items = vs.map .av → (∀ v ∈ vs, WellTyped env.classMap dataType v) →
      PipGives env dataType known (.iter it) (if it.oneShot then [] else vs)
  | more {it} {vs : List AttrVal} : known ≠ [] → it.items = vs.map .av → (∀ v ∈ vs, Searchable known v) →
      (∀ v ∈ vs, ¬ KnownIn known v → WellTyped env.classMap dataType v) →
      PipGives env dataType known (.iter it) (vs.filter fun v => ¬ KnownIn known v)

/-- The values of a designator for a list of subjects with a PIP, added to the values already known. -/
inductive PipValues (env : Env) (r : Request) (pip : Pip) (d : Designator) :
    List CtxSubject → List AttrVal → List AttrVal → Prop
  | nil {known} : PipValues env r pip d [] known known
  | cons {s ss known ans new vs} : (∀ v ∈ designated d s.attributes, WellTyped env.classMap d.dataType v) →
      pip [] ⟨r.data, d⟩ = .ok ans → PipGives env d.dataType (known ++ designated d s.attributes) ans new →
      PipValues env r pip d ss (known ++ designated d s.attributes ++ new) vs →
      PipValues env r pip d (s :: ss) known vs

/-- The bag of values an attribute designator stands for. Only subjects are looked up with the PIP. -/
inductive DesignatorMeans (env : Env) (r : Request) : Category → Designator → List AttrVal → Prop
  | request {cat d attrs} : (cat = .subject → r.ctxHandler = none) → attributesOf cat r.data = some attrs →
      (∀ v ∈ designated d attrs, WellTyped env.classMap d.dataType v) →
      (d.mustBePresent = true → designated d attrs ≠ []) →
      DesignatorMeans env r cat d (designated d attrs)
  | pip {d pip vs} : r.ctxHandler = some pip → PipValues env r pip d r.data.subjects [] vs →
      (d.mustBePresent = true → vs ≠ []) → DesignatorMeans env r .subject d vs

/-- The bag of values an attribute selector stands for. -/
def SelectorMeans (env : Env) (r : Request) (s : Selector) (vs : List AttrVal) : Prop :=
  ∃ xp dt c ns, r.attributeSelector = some xp ∧ s.dataType = some dt ∧ env.classMap.lookup dt = some c ∧
    xp s.path = .ok (ns.map some) ∧ (∀ n ∈ ns, n.isInstance c.native = true) ∧
    (s.mustBePresent = true → ns ≠ []) ∧
    vs = ns.map fun n => { cls := c, dataType := dt, value := some n }

mutual
/-- An expression has a value. -/
inductive Means (env : Env) (r : Request) : Expr → PyVal → Prop
  | value {v} : Means env r (.value v) (.av v)
  | designator {cat d vs} : DesignatorMeans env r cat d vs →
      Means env r (.designator cat d) (.bag ⟨classLookup env.classMap d.dataType, vs⟩)
  | selector {s vs} : SelectorMeans env r s vs →
      Means env r (.selector s) (.bag ⟨classLookup env.classMap s.dataType, vs⟩)
  | apply {f args xs x} : MeansAll env r args xs → FuncMeans env.re f xs x → Means env r (.apply (some f) args) x
/-- Expressions all have values. -/
inductive MeansAll (env : Env) (r : Request) : List Expr → List PyVal → Prop
  | nil : MeansAll env r [] []
  | cons {e es x xs} : Means env r e x → MeansAll env r es xs → MeansAll env r (e :: es) (x :: xs)
end

/-- The request values a match element looks at. -/
def MatchValues (env : Env) (r : Request) (m : Match) (vs : List AttrVal) : Prop :=
  (∃ cat d, m.designator = some (cat, d) ∧ DesignatorMeans env r cat d vs) ∨
  (m.designator = none ∧ ∃ s, m.selector = some s ∧ SelectorMeans env r s vs)

/-- What the match function gives for one of the values. (With debug logging on, a function that returns an
attribute value fails: see C54.) -/
def MatchesValue (env : Env) (m : Match) (v : AttrVal) (x : PyVal) : Prop :=
  ∃ f, m.func = some f ∧ FuncMeans env.re f [optAv m.value, .av v] x ∧ (env.debug = true → ∀ u, x ≠ .av u)

/-- A match element is true or false: is the function true of some value? -/
def MatchMeans (env : Env) (r : Request) (m : Match) (b : Bool) : Prop :=
  ∃ vs xs, MatchValues env r m vs ∧ Each (MatchesValue env m) vs xs ∧ (b = true ↔ ∃ x ∈ xs, ¬ RegardedFalse x)

/-- The truth values of the match elements in a section of a target. -/
def SectionMeans (env : Env) (r : Request) (cs : List TargetChild) (entries : List (List Bool)) : Prop :=
  Each (fun c bs => Each (MatchMeans env r) c.matches_ bs) cs entries

/-- A target is true or false; no target is true. -/
def Applies (env : Env) (r : Request) (t : Option Target) (b : Bool) : Prop :=
  match t with
  | none => b = true
  | some t => ∃ ss rs as es, SectionMeans env r t.subjects ss ∧ SectionMeans env r t.resources rs ∧
      SectionMeans env r t.actions as ∧ SectionMeans env r t.environments es ∧
      (b = true ↔ SectionMatches ss ∧ SectionMatches rs ∧ SectionMatches as ∧ SectionMatches es)

/-- A condition is true or false; no condition is true. -/
def Holds (env : Env) (r : Request) (c : Option Condition) (b : Bool) : Prop :=
  match c with
  | none => b = true
  | some c => ∃ (e : Expr) (x : PyVal), c.expression = some e ∧ Means env r e x ∧ (b = true ↔ ¬ RegardedFalse x)

/-- The decision of a rule. -/
inductive RuleMeans (env : Env) (r : Request) (rule : Rule) : Decision → Prop
  | targetFalse : Applies env r rule.target false → RuleMeans env r rule .notApplicable
  | conditionFalse : Applies env r rule.target true → Holds env r rule.condition false →
      RuleMeans env r rule .notApplicable
  | effect {e} : Applies env r rule.target true → Holds env r rule.condition true → rule.effect = some e →
      RuleMeans env r rule (effectDecision e)
  | targetFails : (∀ b, ¬ Applies env r rule.target b) → RuleMeans env r rule .indeterminate
  | conditionFails : Applies env r rule.target true → (∀ b, ¬ Holds env r rule.condition b) →
      RuleMeans env r rule .indeterminate

mutual
/-- The decision of a policy or policy set. -/
inductive PolicyMeans (env : Env) (r : Request) : PolicyNode → Decision → Prop
  | rules {hdr rules alg ds} : Applies env r hdr.target true → hdr.alg = some alg →
      Each (RuleMeans env r) rules ds →
      PolicyMeans env r (.policy hdr rules) (combineRules alg (rules.map (·.effect)) ds)
  | policies {hdr ps alg ds} : Applies env r hdr.target true → hdr.alg = some alg →
      PoliciesMean env r ps ds → PolicyMeans env r (.policySet hdr ps) (combinePolicies alg ds)
  | policyTargetFalse {hdr rules} : Applies env r hdr.target false →
      PolicyMeans env r (.policy hdr rules) .notApplicable
  | setTargetFalse {hdr ps} : Applies env r hdr.target false →
      PolicyMeans env r (.policySet hdr ps) .notApplicable
  | policyTargetFails {hdr rules} : (∀ b, ¬ Applies env r hdr.target b) →
      PolicyMeans env r (.policy hdr rules) .indeterminate
  | setTargetFails {hdr ps} : (∀ b, ¬ Applies env r hdr.target b) →
      PolicyMeans env r (.policySet hdr ps) .indeterminate
/-- The decisions of policies and policy sets. -/
inductive PoliciesMean (env : Env) (r : Request) : List PolicyNode → List Decision → Prop
  | nil : PoliciesMean env r [] []
  | cons {p ps d ds} : PolicyMeans env r p d → PoliciesMean env r ps ds →
      PoliciesMean env r (p :: ps) (d :: ds)
end

mutual
/-- The policy tree is complete: every policy and policy set has a combining algorithm, every rule an
effect. (Policies read from documents are.) -/
def Complete : PolicyNode → Prop
  | .policy hdr rules => hdr.alg ≠ none ∧ ∀ r ∈ rules, r.effect ≠ none
  | .policySet hdr ps => hdr.alg ≠ none ∧ AllComplete ps
/-- The policy trees are complete. -/
def AllComplete : List PolicyNode → Prop
  | [] => True
  | p :: ps => Complete p ∧ AllComplete ps
end

end Xacml.Spec
