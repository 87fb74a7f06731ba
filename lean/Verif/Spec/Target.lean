import Verif.Spec.Combining

/-!
# Specification of target matching
-/
namespace Xacml.Spec
open Xacml

/-- One section (Subjects, Resources, Actions or Environments), given for each entry the
truth values of its match elements: empty, or some entry is true throughout. -/
def SectionMatches (entries : List (List Bool)) : Prop :=
  entries = [] ∨ ∃ entry ∈ entries, ∀ b ∈ entry, b = true

/-- The match elements of a target, in document order. -/
def allMatches (t : Target) : List Match :=
  (t.subjects ++ t.resources ++ t.actions ++ t.environments).flatMap (·.matches_)

/-- The truth values `entries` have the shape of section `cs`: one list per entry, one truth
value per match element. -/
def Shape (cs : List TargetChild) (entries : List (List Bool)) : Prop :=
  entries.map List.length = cs.map (·.matches_.length)

/-- What Python regards as false: `False`, zero, the empty string, the empty duration, `None`, an empty bag, and objects
that say so. Everything else is regarded as true, in particular every attribute value. -/
inductive RegardedFalse : PyVal → Prop
  | no : RegardedFalse (.native (.bool false))
  | zero : RegardedFalse (.native (.int 0))
  | zeroDouble : RegardedFalse (.native (.float (.fin 0)))
  | emptyText : RegardedFalse (.native (.str ""))
  | emptyDuration : RegardedFalse (.native (.timedelta 0))
  | nothing : RegardedFalse .none
  | emptyBag {t} : RegardedFalse (.bag ⟨t, []⟩)
  | object : RegardedFalse (.opaque_ false)

/-! XACML 2.0, tables of section 7.6 (`none` = the match element is Indeterminate). -/

inductive Matching where
  | match_ | noMatch | indeterminate
  deriving DecidableEq

/-- Table 3: an entry. -/
def entryTable (ms : List (Option Bool)) : Matching :=
  if some false ∈ ms then .noMatch
  else if none ∈ ms then .indeterminate
  else .match_

/-- Table 2: a section. -/
def sectionTable (entries : List (List (Option Bool))) : Matching :=
  if entries = [] ∨ .match_ ∈ entries.map entryTable then .match_
  else if .indeterminate ∈ entries.map entryTable then .indeterminate
  else .noMatch

/-- Table 1: the target, from its four sections. -/
def targetTable (s r a e : List (List (Option Bool))) : Matching :=
  let ms := [sectionTable s, sectionTable r, sectionTable a, sectionTable e]
  if .indeterminate ∈ ms then .indeterminate
  else if .noMatch ∈ ms then .noMatch
  else .match_

/-- The decision an Effect stands for. -/
def effectDecision : Effect → Decision
  | .permit => .permit
  | .deny => .deny

end Xacml.Spec
