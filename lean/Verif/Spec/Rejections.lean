import Verif.Spec.Semantics

/-!
# Specification: with which exception a function rejects its arguments
-/
namespace Xacml.Spec
open Xacml

/-- The numbers of arguments a function can be called with at all. -/
def TakesArgs : Func → Nat → Prop
  | .equal _, n | .matchFn _, n | .atLeastOneMemberOf _, n | .regexpMatch _, n => n = 2
  | .oneAndOnly _, n | .round, n => n = 1
  | .not, n => n ≤ 1
  | .bag _, _ | .and, _ | .concatenate _, _ | .custom _, _ => True

/-- A bag declared with exactly this type. -/
def BagOf (t : AVClass) (x : PyVal) : Prop := ∃ c items, x = .bag ⟨some c, items⟩ ∧ c.uid = t.uid

/-- Why a function of the standard fails, and the exception it raises; `re` is Python's regular expression engine. -/
inductive Rejects (re : String → Except Exc (String → Bool)) : Func → List PyVal → Exc → Prop
  | count {f args} : ¬ TakesArgs f args.length → Rejects re f args .typeError
  | equal {t a b} : ¬ (a.isInst t ∧ b.isInst t) → Rejects re (.equal t) [a, b] .xacmlContextTypeError
  | matchFn {t a b} : ¬ (a.isInst t ∧ b.isInst t) → Rejects re (.matchFn t) [a, b] .xacmlContextTypeError
  /-- Neither class is derived from the other. -/
  | incomparable {t} {a b : AttrVal} : a.isInst t → b.isInst t → (∀ r, a.pyEq b ≠ .ok r) →
      Rejects re (.matchFn t) [.av a, .av b] .typeError
  | bag {t args} : ¬ (∀ x ∈ args, x.isInst t) → Rejects re (.bag t) args .typeError
  | oneAndOnly {t x} : ¬ (BagOf t x ∧ ∃ c v, x = .bag ⟨c, [v]⟩) → Rejects re (.oneAndOnly t) [x] .xacmlContextError
  | atLeastOneMemberOf {t a b} : ¬ (BagOf t a ∧ BagOf t b) → Rejects re (.atLeastOneMemberOf t) [a, b] .xacmlContextTypeError
  | and {args} : ¬ (∀ x ∈ args, ∃ b, x = .native (.bool b)) → Rejects re .and args .xacmlContextTypeError
  | not {x} : ¬ (∃ b, x = .native (.bool b)) → Rejects re .not [x] .xacmlContextTypeError
  | notNothing : Rejects re .not [] .xacmlContextTypeError
  | roundNan : Rejects re .round [.native (.float .nan)] .valueError
  | roundInf {s} : Rejects re .round [.native (.float (.inf s))] .overflowError
  | round {x} : ¬ (∃ i, x = .native (.int i)) → ¬ (∃ b, x = .native (.bool b)) → ¬ (∃ q, x = .native (.float q)) →
      Rejects re .round [x] .xacmlContextTypeError
  | concatenateCount {t args} : args.length < 2 → Rejects re (.concatenate t) args .xacmlContextError
  | concatenate {t a args} : args ≠ [] → ¬ (a.isInst t ∧ ∀ x ∈ args, x.isInst stringClass) →
      Rejects re (.concatenate t) (a :: args) .xacmlContextTypeError
  /-- A value that is not a text, or a result type that does not hold texts. -/
  | concatenateText {t} {v : AttrVal} {vs : List AttrVal} : vs ≠ [] → v.isInst t → (∀ u ∈ vs, u.isInst stringClass = true) →
      ¬ ((∀ u ∈ v :: vs, ∃ s, HasText u s) ∧ t.native = .str) → Rejects re (.concatenate t) (.av v :: vs.map .av) .typeError
  | regexpMatch {t a b} : ¬ (a.isInst t ∧ b.isInst t) → Rejects re (.regexpMatch t) [a, b] .typeError
  | pattern {t} {p i : AttrVal} : p.isInst t → i.isInst t → ¬ (∃ s, HasText p s) →
      Rejects re (.regexpMatch t) [.av p, .av i] .typeError
  | invalid {t} {p i : AttrVal} {pat e} : p.isInst t → i.isInst t → HasText p pat → re pat = .error e →
      Rejects re (.regexpMatch t) [.av p, .av i] e
  | input {t} {p i : AttrVal} {pat m} : p.isInst t → i.isInst t → HasText p pat → re pat = .ok m → ¬ (∃ s, HasText i s) →
      Rejects re (.regexpMatch t) [.av p, .av i] .typeError

/-- The functions of the standard, not custom ones. -/
def StandardFunction : Func → Prop
  | .custom _ => False
  | _ => True

/-- The functions that reject values of wrong types with the exceptions of XACML contexts. -/
def ContextChecked : Func → Prop
  | .equal _ | .oneAndOnly _ | .atLeastOneMemberOf _ | .and | .not => True
  | _ => False

end Xacml.Spec
