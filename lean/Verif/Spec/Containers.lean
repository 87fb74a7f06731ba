import Verif.Model.Containers

/-!
# Specifications for the containers
-/
namespace Xacml.Spec

/-- Calls that TypedList overrides, and inherited ones that bring in no new item. -/
def checkedCall {α} : TLEvent α → Prop
  | .insert _ _ => False
  | .setItem _ _ => False
  | _ => True

/-- The items a call offers to a UniqList. -/
def offered {α} : ULEvent α → List α
  | .append x => [x]
  | .extend it => it.items
  | .iadd it => it.items

/-- Each item once, in the order of first occurrence. -/
def firstOffers {α} [DecidableEq α] : List α → List α
  | [] => []
  | x :: xs => x :: (firstOffers xs).filter (· ≠ x)

/-- Both filters accept. -/
def Vetted {κ α} (f : Filters κ α) (k : κ) (v : α) : Prop := f.key k = .ok true ∧ f.value v = .ok true

/-- Neither filter raises (the value is only looked at if the key is accepted). -/
def Quiet {κ α} (f : Filters κ α) (k : κ) (v : α) : Prop :=
  (∃ b, f.key k = .ok b) ∧ (f.key k = .ok true → ∃ b, f.value v = .ok b)

open Classical in
/-- A register for one key `k`: what one call makes of its content. `update` stops at the first pair
for which a filter raises. -/
noncomputable def register {κ α} (f : Filters κ α) (k : κ) (cur : Option α) : VDEvent κ α → Option α
  | .set k' v => if k' = k ∧ Vetted f k v then some v else cur
  | .del k' => if k' = k then none else cur
  | .update ps =>
    (ps.takeWhile fun p => Quiet f p.1 p.2).foldl (fun cur p => if p.1 = k ∧ Vetted f k p.2 then some p.2 else cur) cur
  | .setdefault k' v => if k' = k ∧ cur = none ∧ Vetted f k v then some v else cur
  | .clear => none

/-- A register for one identifier: what a registration makes of its content. -/
def regEffect (identifier : String) (cur : Option RegValue) (e : RegEvent) : Option RegValue :=
  match e with
  | ⟨.str i, .cls c, overwrite⟩ => if i = identifier ∧ (overwrite = true ∨ cur = none) then some (.cls c) else cur
  | _ => cur

/-- A native value belongs to a native type (a Python bool is an int). -/
inductive HasType : Native → NativeType → Prop
  | str s : HasType (.str s) .str
  | int i : HasType (.int i) .int
  | boolInt b : HasType (.bool b) .int
  | bool b : HasType (.bool b) .bool
  | float x : HasType (.float x) .float
  | datetime d : HasType (.datetime d) .datetime
  | timedelta t : HasType (.timedelta t) .timedelta

end Xacml.Spec
